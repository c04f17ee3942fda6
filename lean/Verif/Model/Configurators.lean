import Verif.Model.PyVal
import Mathlib.Data.List.Infix

/-!
# Loading a problem and the problem configurators

aviary/core/aviary_group.py:232-398, aviary/core/aviary_group.py:1504-1583 and the parts of
aviary/mission/energy_state_problem_configurator.py, aviary/mission/two_dof_problem_configurator.py and
aviary/mission/solved_two_dof_problem_configurator.py that choose builders, fix the range and tie the trajectory to its surroundings.
-/

namespace Verif.Configure

/-- `Verbosity`, aviary/variable_info/enums.py:280-298. -/
inductive Verb | quiet | brief | verbose | debug
  deriving DecidableEq, Repr

/-- aviary/variable_info/enums.py:280-298. -/
def Verb.ofInt : ℤ → Except Err Verb
  | 0 => .ok .quiet
  | 1 => .ok .brief
  | 2 => .ok .verbose
  | 3 => .ok .debug
  | _ => .error .valueError

/-- aviary/variable_info/enums.py:280-298. -/
def Verb.toInt : Verb → ℤ
  | .quiet => 0
  | .brief => 1
  | .verbose => 2
  | .debug => 3

/-- `_override_verbosity`: an integer or member, else the one of the group, which is `None` before `load_inputs`.
aviary/core/aviary_group.py:232-252. -/
def overrideVerbosity (own : Option Verb) : Option ℤ → Except Err (Option Verb)
  | some i => (Verb.ofInt i).map some
  | none => .ok own

/-- What may be given as an external subsystem: engine model, other builder, or an object that is neither, perhaps with metadata.
aviary/core/aviary_group.py:386-398. -/
inductive Ext
  | engine (name : String)
  | builder (name : String)
  | other (name : String) (hasMeta : Bool)
  deriving DecidableEq, Repr

/-- aviary/core/aviary_group.py:386-398. -/
def Ext.name : Ext → String
  | .engine n => n
  | .builder n => n
  | .other n _ => n

/-- Lists of the group after loading, names whose metadata was merged, and number of warnings; aviary/core/aviary_group.py:386-398. -/
structure Loaded where
  engines : List String
  externals : List String
  metas : List String
  warned : ℕ
  deriving DecidableEq, Repr

/-- The last three lines of the loop: the list is extended before the metadata is read.  The second value tells whether an exception
was raised.  aviary/core/aviary_group.py:392-398. -/
def loadOne (s : Loaded) : Ext → Loaded × Option Err
  | .engine n => ({ s with engines := s.engines ++ [n], metas := s.metas ++ [n] }, none)
  | .builder n => ({ s with externals := s.externals ++ [n], metas := s.metas ++ [n] }, none)
  | .other n true => ({ s with externals := s.externals ++ [n], metas := s.metas ++ [n] }, none)
  | .other n false => ({ s with externals := s.externals ++ [n] }, some .attributeError)

/-- One round: `not isinstance(…) and verbosity >= verbosity.BRIEF`.  aviary/core/aviary_group.py:386-398. -/
def loadStep (v : Option Verb) (s : Loaded) : Ext → Loaded × Option Err
  | .other n h => match v with
    | none => (s, some .attributeError)
    | some .quiet => loadOne s (.other n h)
    | some _ => ({ s with warned := s.warned + 1 }, none)
  | e => loadOne s e

/-- `load_external_subsystems`, aviary/core/aviary_group.py:373-398. -/
def loadExternals (v : Option Verb) : List Ext → Loaded → Loaded × Option Err
  | [], s => (s, none)
  | e :: r, s => match loadStep v s e with
    | (s', some err) => (s', some err)
    | (s', none) => loadExternals v r s'

/-- `Settings.EQUATIONS_OF_MOTION`, aviary/variable_info/enums.py:81-87. -/
inductive Eom | energyState | twoDof | solvedTwoDof | custom
  deriving DecidableEq, Repr

/-- The configurators, aviary/core/aviary_group.py:307-328. -/
inductive Config | energyState | twoDof | solvedTwoDof | user (name : String)
  deriving DecidableEq, Repr

/-- Choice of the configurator, aviary/core/aviary_group.py:307-328. -/
def choose (given : Option String) : Eom → Except Err Config
  | .energyState => .ok .energyState
  | .twoDof => .ok .twoDof
  | .solvedTwoDof => .ok .solvedTwoDof
  | .custom => match given with
    | some n => .ok (.user n)
    | none => .error .valueError

/-- Split of `phase_info`: phases, settings before and after the mission.  aviary/core/aviary_group.py:352-369. -/
def splitInfo {α : Type} (empty : α) (info : Dict String α) : Dict String α × α × α :=
  (info.filter (fun p => p.1 ≠ "pre_mission" ∧ p.1 ≠ "post_mission"),
    (info.get? "pre_mission").getD empty, (info.get? "post_mission").getD empty)

/-- Annotation of an argument; `from __future__ import annotations` makes texts of them.  aviary/core/aviary_group.py:1567-1583. -/
inductive Ann | empty | dict | aviaryValues | text | other
  deriving DecidableEq, Repr

/-- `_validate_phase_info_modifier` on the parameters of the function, whose names are distinct; equality of the sets of names is
inclusion both ways.  aviary/core/aviary_group.py:1552-1583. -/
def validateModifier (params : Dict String Ann) : Except Err Unit :=
  let expected := ["phase_info", "post_mission_info", "aviary_inputs"]
  if (expected.all (fun k => params.has k) && params.keys.all (fun k => decide (k ∈ expected))) = false then .error .valueError
  else if params.get? "phase_info" ≠ some .dict ∧ params.get? "phase_info" ≠ some .empty then .error .typeError
  else if params.get? "post_mission_info" ≠ some .dict ∧ params.get? "post_mission_info" ≠ some .empty then .error .typeError
  else if params.get? "aviary_inputs" ≠ some .aviaryValues ∧ params.get? "aviary_inputs" ≠ some .empty then .error .typeError
  else .ok ()

/-- A guess of a subsystem: variable, value, units, and the text under `type`.  aviary/core/aviary_group.py:1537-1550. -/
structure Guess (α : Type) where
  key : String
  val : α
  units : Option String
  type : String

/-- What is called on the phase, aviary/core/aviary_group.py:1544-1550. -/
inductive SetCall (α : Type)
  | state (key : String) (val : α) (units : Option String)
  | control (key : String) (val : α) (units : Option String)

/-- `part in text`, aviary/core/aviary_group.py:1546-1549. -/
def within (part text : String) : Bool := decide (part.toList <:+: text.toList)

/-- One guess, aviary/core/aviary_group.py:1538-1550. -/
def guessCall {α : Type} (process : α → String → α) (g : Guess α) : Option (SetCall α) :=
  if within "state" g.type then some (.state g.key (process g.val g.key) g.units)
  else if within "control" g.type then some (.control g.key (process g.val g.key) g.units)
  else none

/-- `_add_subsystem_guesses`; each subsystem gets its options of the phase, else an empty dictionary.
aviary/core/aviary_group.py:1504-1550. -/
def subsystemGuesses {α β : Type} (process : α → String → α) (empty : β) (opts : Dict String β)
    (subs : List (String × (β → List (Guess α)))) : List (SetCall α) :=
  subs.flatMap (fun s => (s.2 ((opts.get? s.1).getD empty)).filterMap (guessCall process))

/-- Options of the subsystems after the mission: they are looked up in the settings before the mission.
aviary/core/aviary_group.py:842-847. -/
def postMissionOptions {β : Type} (empty : β) (pre _post : Dict String (Dict String β)) (name : String) : β :=
  (((pre.get? "subsystem_options").getD []).get? name).getD empty

/-! ## Phase builders -/

/-- `PhaseType`, aviary/variable_info/enums.py:176-199. -/
inductive PhaseType | accel | breguetRange | default | simpleCruise | twoDofTakeoff
  deriving DecidableEq, Repr

/-- The phase builders, aviary/mission/two_dof_problem_configurator.py:171-199, aviary/mission/solved_two_dof_problem_configurator.py:104-111,
aviary/mission/energy_state_problem_configurator.py:142-151. -/
inductive Builder | electricCruise | breguetCruise | simpleCruise | takeoff | accel | flight | groundroll | solvedTwoDof | energy
  | user (name : String)
  deriving DecidableEq, Repr

/-- aviary/mission/two_dof_problem_configurator.py:151-199. -/
def twoDofBuilder (phaseName : String) : Option PhaseType → Builder
  | some .breguetRange => if within "electric_cruise" phaseName then .electricCruise else .breguetCruise
  | some .simpleCruise => .simpleCruise
  | some .twoDofTakeoff => .takeoff
  | some .accel => .accel
  | some .default => .flight
  | none => .flight

/-- `user_options.get(…)` is false for a missing option.  aviary/mission/solved_two_dof_problem_configurator.py:84-111. -/
def solvedBuilder (groundRoll rotation : Option Bool) : Builder :=
  if groundRoll.getD false && !rotation.getD false then .groundroll else .solvedTwoDof

/-- The value under `phase_type`, next to the user options: a class, with whether it is a `PhaseBuilder`, or something that is not a
class.  aviary/mission/energy_state_problem_configurator.py:122-151. -/
def energyBuilder : Option (Option (String × Bool)) → Except Err Builder
  | none => .ok .energy
  | some (some (n, true)) => .ok (.user n)
  | some (some (_, false)) => .error .typeError
  | some none => .error .typeError

/-! ## Ranges -/

/-- Values in nautical miles: range of the design, and the target after the mission if given; results are the target of the group, the
range of the mission if it is set, and whether the residual of the range is constrained.
aviary/mission/energy_state_problem_configurator.py:25-64, aviary/mission/two_dof_problem_configurator.py:28-74,
aviary/mission/solved_two_dof_problem_configurator.py:18-39. -/
structure Ranges where
  target : ℚ
  missionSet : Option ℚ
  residual : Option Bool
  deriving DecidableEq, Repr

/-- aviary/mission/energy_state_problem_configurator.py:25-64, aviary/mission/two_dof_problem_configurator.py:28-74,
aviary/mission/solved_two_dof_problem_configurator.py:18-39. -/
def ranges (db : UnitDB) (target : Option (ℚ × String)) (design : ℚ) : Config → Except Err Ranges
  | .energyState => match target with
    | some (x, u) => (convertUnits db x u "NM").map (fun t => ⟨t, some t, some true⟩)
    | none => .ok ⟨design, none, some false⟩
  | .twoDof => match target with
    | some (x, u) => (convertUnits db x u "NM").map (fun t => ⟨t, some t, some true⟩)
    | none => .ok ⟨design, some design, some true⟩
  | .solvedTwoDof => match target with
    | some (x, u) => (convertUnits db x u "NM").map (fun t => ⟨t, none, none⟩)
    | none => .ok ⟨design, none, none⟩
  | .user _ => .error .attributeError

/-! ## The start of the first phase -/

/-- Options of the mass state of the first phase, aviary/mission/energy_state_problem_configurator.py:241-247,
aviary/mission/energy_state_problem_configurator.py:309-314, aviary/mission/solved_two_dof_problem_configurator.py:185-191. -/
structure MassState where
  fixInitial : Bool
  inputInitial : Bool
  deriving DecidableEq, Repr

/-- The parts that concern the start: subsystems added, connections (source, target), constrained residuals (left, right), the state.
aviary/mission/energy_state_problem_configurator.py:226-247, aviary/mission/energy_state_problem_configurator.py:291-390,
aviary/mission/two_dof_problem_configurator.py:110-149, aviary/mission/two_dof_problem_configurator.py:309-367,
aviary/mission/solved_two_dof_problem_configurator.py:172-207. -/
structure Start where
  subs : List String
  conns : List (String × String)
  eqs : List (String × String)
  mass : MassState
  deriving DecidableEq, Repr

/-- `add_takeoff_systems`, only called with the take-off.  The outputs of the systems matter later: the simple take-off promotes the
final mass.  aviary/core/aviary_group.py:610-611, aviary/mission/energy_state_problem_configurator.py:100-120,
aviary/mission/two_dof_problem_configurator.py:110-149, aviary/mission/solved_two_dof_problem_configurator.py:73-82. -/
def takeoffSystems (c : Config) (takeoff : Bool) (s : Start) : Start :=
  if takeoff then match c with
    | .energyState => { s with subs := s.subs ++ ["takeoff"] }
    | .twoDof => { s with subs := s.subs ++ ["event_xform", "taxi"] }
    | _ => s
  else s

/-- `add_post_mission_systems` for the mass at the start; `first` is the name of the first phase.
aviary/mission/energy_state_problem_configurator.py:304-354, aviary/mission/energy_state_problem_configurator.py:371-384,
aviary/mission/solved_two_dof_problem_configurator.py:172-207. -/
def postSystems (c : Config) (takeoff : Bool) (first : String) (s : Start) : Start :=
  match c with
  | .energyState =>
    if takeoff then { s with conns := s.conns ++ [("mission:takeoff:final_mass", "traj." ++ first ++ ".initial_states:mass"),
      ("mission:takeoff:ground_distance", "traj." ++ first ++ ".initial_states:distance")] }
    else { s with subs := s.subs ++ ["takeoff_mass_comp"], eqs := s.eqs ++ [("traj." ++ first ++ ".states:mass", "mission:takeoff:final_mass")],
                  mass := ⟨false, false⟩ }
  | .solvedTwoDof => { s with eqs := s.eqs ++ [("traj." ++ first ++ ".states:mass", "mission:gross_mass")], mass := ⟨false, false⟩ }
  | _ => s

/-- `configure_trajectory` for the mass at the start.  aviary/mission/energy_state_problem_configurator.py:226-247,
aviary/mission/two_dof_problem_configurator.py:355-364, aviary/mission/problem_configurator.py:110-123. -/
def configureTraj (c : Config) (takeoff : Bool) (s : Start) : Start :=
  match c with
  | .energyState => if takeoff then { s with mass := { s.mass with inputInitial := true } } else s
  | .twoDof => { s with eqs := s.eqs ++ [("traj.groundroll.states:mass", "taxi.mass")] }
  | _ => s

/-- The calls in the order of the methods of the problem; the state begins with the options of the phase builder.
aviary/core/aviary_group.py:540-627, aviary/core/aviary_group.py:793-850, aviary/core/aviary_group.py:944-1000. -/
def start (c : Config) (takeoff : Bool) (first : String) (m0 : MassState) : Start :=
  configureTraj c takeoff (postSystems c takeoff first (takeoffSystems c takeoff ⟨[], [], [], m0⟩))

/-- `set_phase_options` of the solved equations: what is fixed, and the scalers of time.  Bounds are pairs of optional numbers; `None`
for one of them gives a `TypeError` in the mean.  aviary/mission/solved_two_dof_problem_configurator.py:134-170. -/
structure TimeOpts where
  fixInitial : Bool
  fixDuration : Bool
  durationRef : ℚ
  initialBounds : Option (Option ℚ × Option ℚ)
  initialRef : Option (Option ℚ)
  deriving DecidableEq, Repr

/-- aviary/mission/solved_two_dof_problem_configurator.py:134-170. -/
def solvedTime (initial duration : Option ℚ) (ib db : Option ℚ × Option ℚ) (iref dref : Option ℚ) (size : ℕ) : Except Err TimeOpts :=
  let ir : Option ℚ := match iref with
    | some r => some r
    | none => if ib.1.isSome && ib.2 ≠ some 0 then ib.2 else some 600
  match (match dref, db with
    | some r, _ => Except.ok r
    | none, (some a, some b) => Except.ok ((a + b) / 2)
    | none, _ => Except.error Err.typeError) with
  | .error e => .error e
  | .ok dr => .ok ⟨initial.isSome, duration.isSome, dr, if initial.isSome then none else some ib,
      if size = 1 ∨ initial.isSome then none else some ir⟩

end Verif.Configure
