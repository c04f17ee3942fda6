import Verif.Model.Builders

/-!
# Options the two degree of freedom ODEs give to their subsystems

Each ODE combines its own options for aerodynamics with the ones of the user, dictionary by dictionary.  Dictionaries are lists of
pairs in order of insertion; a dictionary changed in place is returned in its new form.
-/

namespace Verif.OdeOpts
open Verif.Builders

/-- `dict[k] = v`, e.g. aviary/mission/two_dof/ode/takeoff_ode.py:147-154. -/
def put : List (String × Val) → String → Val → List (String × Val)
  | [], k, v => [(k, v)]
  | (a, b) :: r, k, v => if a = k then (a, v) :: r else (a, b) :: put r k v

/-- `dict.update` of the entries other than `'method'`, e.g. aviary/mission/two_dof/ode/takeoff_ode.py:156-157. -/
def merge (r s : List (String × Val)) : List (String × Val) := s.foldl (fun d p => put d p.1 p.2) r

/-- `a.update(b)`, e.g. aviary/mission/two_dof/ode/takeoff_ode.py:156-157. -/
def update (a b : Opts) : Opts := ⟨b.method.or a.method, merge a.rest b.rest⟩

/-- What kind of builder a subsystem is, e.g. aviary/mission/two_dof/ode/landing_ode.py:78-119. -/
inductive Kind | aero (c : Origin) | prop | other
  deriving DecidableEq, Repr

/-- A subsystem: name and kind, aviary/mission/base_ode.py:81-86. -/
structure Sub where
  name : String
  kind : Kind
  deriving DecidableEq, Repr

/-- `isinstance(subsystem, AerodynamicsBuilder)`, e.g. aviary/mission/two_dof/ode/flight_ode.py:181. -/
def Sub.isAero (b : Sub) : Bool := match b.kind with | .aero _ => true | _ => false

/-- `subsystem_options`, aviary/mission/base_ode.py:19-24. -/
abbrev Dict := List (String × Opts)

/-- The dictionary after the entry of `n` was changed in place, e.g. aviary/mission/two_dof/ode/flight_ode.py:179-186. -/
def setEntry : Dict → String → Opts → Dict
  | [], _, _ => []
  | (a, b) :: r, n, o => if a = n then (a, o) :: r else (a, b) :: setEntry r n o

/-- The ODEs with the flags that matter: `clean`, `ground_roll`, `rotation`.
aviary/mission/two_dof/ode/takeoff_ode.py:22-55, aviary/mission/two_dof/ode/flight_path_ode.py:20-38,
aviary/mission/two_dof/ode/flight_ode.py:24-33, aviary/mission/two_dof/ode/breguet_cruise_ode.py:15-24,
aviary/mission/two_dof/ode/simple_cruise_ode.py:15-24, aviary/mission/two_dof/ode/accel_ode.py:10-20,
aviary/mission/two_dof/ode/landing_ode.py:20-23, aviary/mission/solved_two_dof/ode/groundroll_ode.py:18-29,
aviary/mission/solved_two_dof/ode/unsteady_solved_ode.py:37-84. -/
inductive Ode
  | takeoff (clean ground rotation : Bool)
  | flightPath (clean : Bool)
  | flight | breguet | simpleCruise | accel | landing
  | groundroll
  | unsteady (clean : Bool)
  deriving DecidableEq, Repr

/-- The options of the ODE itself for aerodynamics.
aviary/mission/two_dof/ode/takeoff_ode.py:146-154, aviary/mission/two_dof/ode/flight_path_ode.py:49-52,
aviary/mission/two_dof/ode/flight_ode.py:182-186, aviary/mission/two_dof/ode/breguet_cruise_ode.py:43-46,
aviary/mission/two_dof/ode/simple_cruise_ode.py:42-45, aviary/mission/two_dof/ode/accel_ode.py:29-32,
aviary/mission/two_dof/ode/landing_ode.py:80-84, aviary/mission/solved_two_dof/ode/groundroll_ode.py:47-49,
aviary/mission/solved_two_dof/ode/unsteady_solved_ode.py:157-161. -/
def Ode.base : Ode → Opts
  | .takeoff clean ground rotation =>
    ⟨some (if clean then "cruise" else "low_speed"),
     (if clean then [("output_alpha", .flag false)] else []) ++
      (if !(ground || rotation) then [("retract_gear", .flag true), ("retract_flaps", .flag true)] else [])⟩
  | .flightPath clean => if clean then ⟨some "cruise", [("output_alpha", .flag false)]⟩ else ⟨some "low_speed", []⟩
  | .flight => ⟨some "cruise", []⟩
  | .breguet | .simpleCruise | .accel => ⟨some "cruise", [("output_alpha", .flag true)]⟩
  | .landing => ⟨some "low_speed", [("retract_flaps", .flag true), ("retract_gear", .flag false)]⟩
  | .groundroll => ⟨some "low_speed", []⟩
  | .unsteady clean => ⟨some (if clean then "cruise" else "low_speed"), []⟩

/-- The empty dictionary of options, e.g. aviary/mission/base_ode.py:86. -/
def noOpts : Opts := ⟨none, []⟩

/-- Variables of the loop: the user's dictionary and the `kwargs` kept from one subsystem to the next (in the solved ODEs).
aviary/mission/solved_two_dof/ode/unsteady_solved_ode.py:157-165. -/
structure St where
  user : Dict
  carry : Opts

/-- Before the loop; the acceleration ODE writes into the entry `'aerodynamics'`, aviary/mission/two_dof/ode/accel_ode.py:33. -/
def Ode.start (o : Ode) (d : Dict) : St :=
  match o with
  | .accel =>
    match d.lookup "aerodynamics" with
    | some e => ⟨setEntry d "aerodynamics" (update e Ode.accel.base), o.base⟩
    | none => ⟨d ++ [("aerodynamics", update noOpts Ode.accel.base)], o.base⟩
  | _ => ⟨d, o.base⟩

/-- One pass of the loop: the options given to `build_mission`, if the subsystem is built at all.
aviary/mission/two_dof/ode/takeoff_ode.py:142-164, aviary/mission/two_dof/ode/flight_path_ode.py:111-117,
aviary/mission/two_dof/ode/flight_ode.py:175-193, aviary/mission/two_dof/ode/breguet_cruise_ode.py:36-53,
aviary/mission/two_dof/ode/simple_cruise_ode.py:36-52, aviary/mission/base_ode.py:81-93,
aviary/mission/two_dof/ode/landing_ode.py:78-125, aviary/mission/solved_two_dof/ode/groundroll_ode.py:50-59,
aviary/mission/solved_two_dof/ode/unsteady_solved_ode.py:162-171. -/
def Ode.step (o : Ode) (s : St) (b : Sub) : Option Opts × St :=
  match o with
  | .takeoff _ _ _ =>
    let kw := if b.isAero then o.base else noOpts
    match s.user.lookup b.name with
    | some e => (some (update kw e), s)
    | none => (some kw, s)
  | .flightPath _ => (some s.carry, s)
  | .flight | .breguet | .simpleCruise =>
    match s.user.lookup b.name with
    | some e => if b.isAero then (some (update e o.base), ⟨setEntry s.user b.name (update e o.base), s.carry⟩) else (some e, s)
    | none => if b.isAero then (some (update noOpts o.base), s) else (some noOpts, s)
  | .accel => (some ((s.user.lookup b.name).getD noOpts), s)
  | .landing => match b.kind with
    | .aero _ => (some o.base, s)
    | .prop => (some noOpts, s)
    | .other => (none, s)
  | .groundroll | .unsteady _ =>
    let kw := match s.user.lookup b.name with
      | some e => update s.carry e
      | none => s.carry
    (some kw, ⟨s.user, kw⟩)

/-- The loop over the subsystems.  aviary/mission/two_dof/ode/takeoff_ode.py:142-191 and the loops of the other ODEs. -/
def Ode.loop (o : Ode) : St → List Sub → List (Option Opts) × St
  | s, [] => ([], s)
  | s, b :: bs =>
    let (kw, s') := o.step s b
    let (r, s'') := o.loop s' bs
    (kw :: r, s'')

/-- `setup`: the options of each subsystem and the user's dictionary afterwards.
aviary/mission/two_dof/ode/takeoff_ode.py:57-191 and the other ODEs. -/
def Ode.setup (o : Ode) (d : Dict) (bs : List Sub) : List (Option Opts) × Dict :=
  let (r, s) := o.loop (o.start d) bs
  (r, s.user)

/-- What becomes of the aerodynamics subsystem `b` given options `kw`, e.g. aviary/mission/two_dof/ode/takeoff_ode.py:159-164. -/
def aeroGroup (c : Origin) (kw : Option Opts) : Except Err (Option Grp) :=
  match kw with
  | some o => buildMission c o
  | none => .ok none

/-! ## The flag for tables -/

/-- One phase: its name, and the aerodynamics method of its options, `none` for a KeyError on the way.
aviary/core/aviary_group.py:494-503. -/
structure PhaseOpt where
  name : String
  method : Option String
  deriving DecidableEq, Repr

/-- `'tabular' in method`, aviary/core/aviary_group.py:497-500. -/
def isTabular (m : String) : Bool := decide ("tabular".toList <:+: m.toList)

/-- `tabular`, aviary/core/aviary_group.py:492-503. -/
def tabularFlag (ps : List PhaseOpt) : Bool :=
  ps.foldl (fun t p =>
    if p.name = "pre_mission" ∨ p.name = "post_mission" then t
    else match p.method with
      | some m => if isTabular m then true else t
      | none => false) false

end Verif.OdeOpts
