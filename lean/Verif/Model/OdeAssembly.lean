import Verif.Model.Dict

/-!
# Assembly of an ODE from subsystems and controllers

Hand-written model of `BaseODE.add_subsystems`, aviary/mission/base_ode.py:55-124, of the controllers of angle of attack and throttle,
aviary/mission/two_dof/ode/two_dof_ode.py:17-216, and of `PhaseBuilder.build_phase`, aviary/mission/phase_builder.py:155-221.
A group is the list of its subsystems. `Group.add_subsystem` of OpenMDAO raises `RuntimeError` for a name already in use; this is an
assumption, because OpenMDAO is not part of the code read.
-/

namespace Verif.OdeAssembly

/-- A builder as seen by the loop, aviary/mission/base_ode.py:81-118: all answers depend on the options it is given. -/
structure Sub (O C : Type) where
  name : String
  build : O → Option C
  needs : O → Bool
  ins : O → List String
  outs : O → List String

/-- A subsystem in a group, aviary/mission/base_ode.py:117-122. -/
structure Placed (C : Type) where
  name : String
  comp : C
  ins : List String
  outs : List String

/-- The ODE and the group with a solver, aviary/mission/base_ode.py:96-105. -/
structure Groups (C : Type) where
  ode : List (Placed C)
  solver : List (Placed C)

/-- `add_subsystem`, called at aviary/mission/base_ode.py:117-122. -/
def add {C : Type} (g : List (Placed C)) (p : Placed C) : Except Err (List (Placed C)) :=
  if p.name ∈ g.map Placed.name then .error .runtimeError else .ok (g ++ [p])

/-- The options of a subsystem, aviary/mission/base_ode.py:82-86. -/
def optionsOf {O : Type} (all : Dict String O) (empty : O) (name : String) : O := (all.get? name).getD empty

/-- One round of the loop, aviary/mission/base_ode.py:81-122, `has` tells whether `solver_group` is given. -/
def step {O C : Type} (has : Bool) (all : Dict String O) (empty : O) (s : Sub O C) (g : Groups C) (use : Bool) :
    Except Err (Groups C × Bool) :=
  let o := optionsOf all empty s.name
  match s.build o with
  | none => .ok (g, use)
  | some c =>
    let p : Placed C := ⟨s.name, c, s.ins o, s.outs o⟩
    if s.needs o && has then do
      let l ← add g.solver p
      .ok (⟨g.ode, l⟩, true)
    else do
      let l ← add g.ode p
      .ok (⟨l, g.solver⟩, use)

/-- The loop, aviary/mission/base_ode.py:81-124. -/
def loop {O C : Type} (has : Bool) (all : Dict String O) (empty : O) : List (Sub O C) → Groups C → Bool → Except Err (Groups C × Bool)
  | [], g, use => .ok (g, use)
  | s :: l, g, use => do
    let r ← step has all empty s g use
    loop has all empty l r.1 r.2

/-- `add_subsystems`, aviary/mission/base_ode.py:74-124. -/
def addSubsystems {O C : Type} (has : Bool) (all : Dict String O) (empty : O) (l : List (Sub O C)) (g : Groups C) :
    Except Err (Groups C × Bool) := loop has all empty l g false

/-! ### Angle of attack -/

/-- `AlphaModes`, aviary/variable_info/enums.py:38-46. -/
inductive Mode
  | default | rotation | loadFactor | fuselagePitch | deceleration | requiredLift | altitudeRate | constantAltitude | flightPathAngle
  deriving DecidableEq, Repr

/-- What computes the angle: a formula or a balance with bounds and names of both sides; `none` is the side that is a constant of the
component or is not promoted, aviary/mission/two_dof/ode/two_dof_ode.py:36-108. -/
inductive Ctl
  | formula (inputs : List String)
  | balance (lower upper : Int) (lhs : String) (rhs : Option String)
  deriving DecidableEq, Repr

/-- The component for a mode, aviary/mission/two_dof/ode/two_dof_ode.py:36-108; modes without a branch leave `alpha_comp` unbound. -/
def comp : Mode → Option Ctl
  | .rotation => some (.formula ["rotation_rate", "t_curr", "start_rotation", "aircraft:wing:incidence"])
  | .loadFactor => some (.balance (-2) 25 "load_factor" none)
  | .fuselagePitch => some (.formula ["aircraft:design:max_fuselage_pitch_angle", "flight_path_angle", "aircraft:wing:incidence"])
  | .deceleration => some (.balance (-2) 25 "velocity_rate" none)
  | .requiredLift => some (.balance (-2) 12 "lift" (some "required_lift"))
  | _ => none

/-- `add_alpha_control`: component and whether a Newton solver is set, aviary/mission/two_dof/ode/two_dof_ode.py:17-167. -/
def alpha (m : Mode) (addSolver : Bool) : Except Err (Option (Ctl × Bool)) :=
  if m = .default then .ok none
  else match comp m with
    | none => .error .unboundLocal
    | some c => .ok (some (c, addSolver && m != .rotation))

/-- The group the balance of the throttle is put into: the one shared by all calls without `prop_group`, the ODE itself, or a group made
by the caller, aviary/mission/two_dof/ode/two_dof_ode.py:169-171. -/
inductive PropGroup | shared | self | own
  deriving DecidableEq, Repr

/-- State of the process: subsystem names of the shared default group, of the ODE and of the caller's group,
aviary/mission/two_dof/ode/two_dof_ode.py:169-216. -/
structure Thr where
  shared : List String
  ode : List String
  own : List String
  deriving DecidableEq, Repr

/-- Add a name to a group, aviary/mission/two_dof/ode/two_dof_ode.py:190-198. -/
def addName (g : List String) (n : String) : Except Err (List String) :=
  if n ∈ g then .error .runtimeError else .ok (g ++ [n])

/-- `add_throttle_control`, aviary/mission/two_dof/ode/two_dof_ode.py:169-216, without the options of the solvers. -/
def throttle (p : PropGroup) (s : Thr) : Except Err Thr :=
  match p with
  | .self => do
    let o ← addName s.ode "thrust_balance"
    .ok { s with ode := o }
  | .own => do
    let g ← addName s.own "thrust_balance"
    let o ← addName s.ode "prop_group"
    .ok { s with own := g, ode := o }
  | .shared => do
    let g ← addName s.shared "thrust_balance"
    let o ← addName s.ode "prop_group"
    .ok { s with shared := g, ode := o }

/-! ### Phase -/

/-- The families of builders by the arguments they add: `PhaseBuilder` itself with the accelerating and cruising phases in two degrees of
freedom and the flare, aviary/mission/phase_builder.py:273-275, aviary/mission/energy_state/phases/detailed_landing_phases.py:890-892; the
flight phase of the energy method, aviary/mission/flight_phase_builder.py:440-450; two solved ones,
aviary/mission/solved_two_dof/phases/solved_twodof_phase.py:285-296, aviary/mission/solved_two_dof/phases/groundroll_phase.py:188-196; two in
two degrees of freedom, aviary/mission/two_dof/phases/flight_phase.py:194-201, aviary/mission/two_dof/phases/takeoff_phase.py:283-289; and the
other detailed phases, e.g. aviary/mission/energy_state/phases/detailed_takeoff_phases.py:264-266. -/
inductive Family | base | energy | solved | groundroll | flight | takeoff | detailed
  deriving DecidableEq, Repr

/-- Names of the arguments a family adds, at the lines cited for `Family`, e.g. aviary/mission/flight_phase_builder.py:443-450. -/
def extraKeys : Family → List String
  | .base => []
  | .energy => ["subsystems", "meta_data", "user_options", "subsystem_options", "throttle_enforcement", "throttle_allocation"]
  | .solved => ["subsystems", "meta_data", "user_options", "subsystem_options", "input_speed_type", "clean", "ground_roll",
      "throttle_enforcement"]
  | .groundroll => ["subsystems", "meta_data", "user_options", "subsystem_options", "set_input_defaults"]
  | .flight => ["input_speed_type", "mach_target", "EAS_target"]
  | .takeoff => ["ground_roll", "rotation"]
  | .detailed => ["climbing", "friction_key"]

/-- What `build_phase` reads of a builder, aviary/mission/phase_builder.py:108-153, 223-232; `V` are values of arguments. -/
structure PB (V : Type) where
  ode : Option String
  defaultOde : String
  transcription : Option (Nat × Nat)
  numSegments : Nat
  order : Nat
  analytic : Bool
  nodes : Nat
  extra : Dict String V
  options : Option V
  subsystems : V

/-- The phase: class, transcription (segments and order), arguments of the ODE and segments of the mission bus,
aviary/mission/phase_builder.py:197-218. -/
structure Phase (V : Type) where
  ode : String
  transcription : Option (Nat × Nat)
  kwargs : Dict String V
  bus : Nat

/-- `{**d, **e}`, aviary/mission/phase_builder.py:188. -/
def merge {V : Type} (d : Dict String V) : Dict String V → Dict String V
  | [] => d
  | (k, v) :: e => merge (d.set k v) e

/-- The arguments of the ODE, aviary/mission/phase_builder.py:186-195. -/
def kwargs {V : Type} (b : PB V) (aviary : V) : Dict String V :=
  let k := merge [("aviary_options", aviary)] b.extra
  let k := match b.options with | none => k | some o => k.set "subsystem_options" o
  k.set "subsystems" b.subsystems

/-- `build_phase`, aviary/mission/phase_builder.py:155-221; `empty` is `AviaryValues()`. A given transcription is ignored by an analytic
phase. -/
def buildPhase {V : Type} (b : PB V) (aviary : Option V) (empty : V) : Phase V :=
  let k := kwargs b (aviary.getD empty)
  let c := b.ode.getD b.defaultOde
  if b.analytic then ⟨c, none, k, b.nodes⟩
  else
    let t := b.transcription.getD (b.numSegments, b.order)
    ⟨c, some t, k, t.1⟩

end Verif.OdeAssembly
