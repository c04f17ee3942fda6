import Verif.Model.Dict
import Mathlib.Data.Real.Basic

/-!
# Ties between take-off, trajectory and landing, and the loop that sets the guesses

`add_post_mission_systems`, `_add_post_mission_takeoff_systems` and `_add_landing_systems` of the energy-state configurator
(aviary/mission/energy_state_problem_configurator.py:290-446), `add_takeoff_systems`, `configure_trajectory`,
`add_post_mission_systems` and `_add_landing_systems` of the two-degrees-of-freedom configurator
(aviary/mission/two_dof_problem_configurator.py:110-149, 309-428), and `set_initial_guesses` of the group
(aviary/core/aviary_group.py:1452-1502).  Variables are arrays of real numbers under their promoted names, all in the same units.
-/

namespace Verif.PostTies

/-- `src_indices` of a connection: none, `[0]` or `[-1]`.  aviary/mission/energy_state_problem_configurator.py:401-405, 442-446. -/
inductive Ix | whole | first | last
  deriving DecidableEq, Repr

/-- A call of `connect`.  aviary/mission/energy_state_problem_configurator.py:379-384. -/
structure Conn where
  src : String
  tgt : String
  ix : Ix
  deriving DecidableEq, Repr

/-- The components that compute something here: a difference, a difference of three terms, and `m*tau+b`.  `EQConstraintComp` without
normalization is the difference of its two sides.  aviary/mission/energy_state_problem_configurator.py:314-345,
aviary/mission/energy_state_problem_configurator.py:386-392, aviary/mission/two_dof_problem_configurator.py:125-142. -/
inductive Comp
  | diff (out a b : String)
  | diff3 (out a b c : String)
  | affine (out m tau b : String)
  deriving DecidableEq, Repr

/-- What the methods add to the group: computing components, other subsystems, connections, outputs constrained to zero.
aviary/mission/energy_state_problem_configurator.py:290-446, aviary/mission/two_dof_problem_configurator.py:309-428. -/
structure Net where
  comps : List Comp
  subs : List String
  conns : List Conn
  zeros : List String
  deriving DecidableEq, Repr

/-- One part after the other.  aviary/mission/energy_state_problem_configurator.py:304-354. -/
def Net.append (n m : Net) : Net := ⟨n.comps ++ m.comps, n.subs ++ m.subs, n.conns ++ m.conns, n.zeros ++ m.zeros⟩

/-- Nothing.  aviary/mission/energy_state_problem_configurator.py:353-354. -/
def Net.none : Net := ⟨[], [], [], []⟩

/-- `list(mission_info.keys())[0]`.  aviary/mission/energy_state_problem_configurator.py:310, 376. -/
def firstOf {α : Type} : Dict String α → Except Err (String × α)
  | [] => .error .indexError
  | p :: _ => .ok p

/-- The two options of a phase that matter: `mach_optimize` and `altitude_optimize`, absent is false.
aviary/mission/energy_state_problem_configurator.py:386, 411. -/
structure Opts where
  machOptimize : Option Bool
  altOptimize : Option Bool
  deriving DecidableEq, Repr

/-- The residual of Mach.  aviary/mission/energy_state_problem_configurator.py:386-409. -/
def machTie (first : String) : Net :=
  ⟨[.diff "mach_diff_comp.mach_resid_for_connecting_takeoff" "mach_diff_comp.final_mach" "mach_diff_comp.initial_mach"], [],
   [⟨"mission:takeoff:final_mach", "mach_diff_comp.final_mach", .whole⟩,
    ⟨"traj." ++ first ++ ".control_values:mach", "mach_diff_comp.initial_mach", .first⟩],
   ["mach_diff_comp.mach_resid_for_connecting_takeoff"]⟩

/-- The residual of altitude.  aviary/mission/energy_state_problem_configurator.py:411-431. -/
def altTie (first : String) : Net :=
  ⟨[.diff "alt_diff_comp.altitude_resid_for_connecting_takeoff" "alt_diff_comp.final_altitude" "alt_diff_comp.initial_altitude"], [],
   [⟨"mission:takeoff:final_altitude", "alt_diff_comp.final_altitude", .whole⟩,
    ⟨"traj." ++ first ++ ".control_values:altitude", "alt_diff_comp.initial_altitude", .first⟩],
   ["alt_diff_comp.altitude_resid_for_connecting_takeoff"]⟩

/-- `_add_post_mission_takeoff_systems`.  aviary/mission/energy_state_problem_configurator.py:371-431. -/
def takeoffTies (first : String) (o : Opts) : Net :=
  ((Net.append ⟨[], [], [⟨"mission:takeoff:final_mass", "traj." ++ first ++ ".initial_states:mass", .whole⟩,
      ⟨"mission:takeoff:ground_distance", "traj." ++ first ++ ".initial_states:distance", .whole⟩], []⟩
    (if o.machOptimize.getD false then machTie first else Net.none)).append
    (if o.altOptimize.getD false then altTie first else Net.none))

/-- Without the take-off: the mass after it from the gross mass, and an equation for the first mass of the first phase.
aviary/mission/energy_state_problem_configurator.py:306-351. -/
def massTies (first : String) : Net :=
  ⟨[.diff3 "mission:takeoff:final_mass" "mission:gross_mass" "mission:taxi:fuel_mass_taxi_out" "mission:takeoff:fuel_mass",
    .diff ("link_" ++ first ++ "_mass.mass") ("link_" ++ first ++ "_mass.lhs:mass") "mission:takeoff:final_mass"], [],
   [⟨"traj." ++ first ++ ".states:mass", "link_" ++ first ++ "_mass.lhs:mass", .first⟩],
   ["link_" ++ first ++ "_mass.mass"]⟩

/-- `_add_landing_systems`: `main_phases[-1]` of the energy-state configurator.
aviary/mission/energy_state_problem_configurator.py:429-446. -/
def landingTies (main : List String) : Except Err Net :=
  match main.getLast? with
  | Option.none => .error .indexError
  | some p => .ok ⟨[], ["landing"], [⟨"traj." ++ p ++ ".control_values:altitude", "mission:landing:initial_altitude", .last⟩], []⟩

/-- `range_resid = target_range - actual_range`.  aviary/mission/energy_state_problem_configurator.py:356-369,
aviary/mission/two_dof_problem_configurator.py:394-407. -/
def rangeTie : Net := ⟨[.diff "mission:constraints:range_residual" "target_range" "mission:range"], [], [], []⟩

/-- `add_post_mission_systems` of the energy-state configurator; `main` are the phases that are no reserve.
aviary/mission/energy_state_problem_configurator.py:290-369. -/
def energyPost (phases : Dict String Opts) (main : List String) (takeoff landing : Bool) : Except Err Net := do
  let p ← firstOf phases
  let a := if takeoff then takeoffTies p.1 p.2 else massTies p.1
  let b ← if landing then landingTies main else .ok Net.none
  return (a.append b).append rangeTie

/-- `add_takeoff_systems` of the two-degrees-of-freedom configurator: the times of the events.
aviary/mission/two_dof_problem_configurator.py:121-149. -/
def eventTies : Net :=
  ⟨[.affine "t_init_gear" "mission:takeoff:ascent_duration" "tau_gear" "mission:takeoff:ascent_t_initial",
    .affine "t_init_flaps" "mission:takeoff:ascent_duration" "tau_flaps" "mission:takeoff:ascent_t_initial"], ["taxi"], [], []⟩

/-- `add_post_mission_systems` and `_add_landing_systems` of the two-degrees-of-freedom configurator; the phase `ascent` is fetched as
an attribute.  aviary/mission/two_dof_problem_configurator.py:369-428. -/
def twoDofPost (phases : List String) (landing : Bool) : Except Err Net :=
  let a : Net := if landing then ⟨[], ["landing"],
      [⟨"pre_mission.interference_independent_of_shielded_area", "landing.interference_independent_of_shielded_area", .whole⟩,
       ⟨"pre_mission.drag_loss_due_to_shielded_wing_area", "landing.drag_loss_due_to_shielded_wing_area", .whole⟩], []⟩ else Net.none
  if "ascent" ∈ phases then .ok ((a.append ⟨[], ["h_fit"], [], []⟩).append rangeTie) else .error .attributeError

/-- `configure_trajectory` of the two-degrees-of-freedom configurator: the start of the ascent, the mass after taxi, the points of the
fit.  The duration of the ascent and the times of the events are promoted from the trajectory to the names used above.
aviary/mission/two_dof_problem_configurator.py:309-367. -/
def twoDofLink : Net :=
  ⟨[.diff "ascent_initial_time_slack_constraint.con_val" "ascent_initial_time_slack_constraint.initial_time"
      "mission:takeoff:ascent_t_initial",
    .diff "taxi_groundroll_mass_constraint.mass" "taxi_groundroll_mass_constraint.lhs:mass" "taxi_groundroll_mass_constraint.rhs:mass"], [],
   [⟨"traj.ascent.t_initial", "ascent_initial_time_slack_constraint.initial_time", .whole⟩,
    ⟨"taxi.mass", "taxi_groundroll_mass_constraint.rhs:mass", .whole⟩,
    ⟨"traj.groundroll.states:mass", "taxi_groundroll_mass_constraint.lhs:mass", .first⟩,
    ⟨"traj.ascent.timeseries.time", "h_fit.time_cp", .whole⟩,
    ⟨"traj.ascent.timeseries.altitude", "h_fit.h_cp", .whole⟩],
   ["ascent_initial_time_slack_constraint.con_val", "taxi_groundroll_mass_constraint.mass"]⟩

/-- All three with the take-off, in the order of the calls.  aviary/core/aviary_group.py:610-611, aviary/core/aviary_group.py:834,
aviary/core/aviary_group.py:944-1000. -/
def twoDofAll (phases : List String) (landing : Bool) : Except Err Net := do
  let p ← twoDofPost phases landing
  return (eventTies.append p).append twoDofLink

/-- What a target receives.  aviary/mission/energy_state_problem_configurator.py:401-405, 442-446. -/
def Ix.pick : Ix → List ℝ → List ℝ
  | .whole, l => l
  | .first, l => l.take 1
  | .last, l => l.drop (l.length - 1)

/-- The number in a variable of one element.  aviary/mission/energy_state_problem_configurator.py:388-392. -/
def num (env : String → List ℝ) (v : String) : ℝ := (env v).headD 0

/-- A component has run.  aviary/mission/energy_state_problem_configurator.py:314-345, 386-392,
aviary/mission/two_dof_problem_configurator.py:125-142. -/
def Comp.Ran (env : String → List ℝ) : Comp → Prop
  | .diff out a b => env out = [num env a - num env b]
  | .diff3 out a b c => env out = [num env a - num env b - num env c]
  | .affine out m tau b => env out = [num env m * num env tau + num env b]

/-- The model has run: connected inputs have the values of their sources, components have computed.
aviary/mission/energy_state_problem_configurator.py:290-446. -/
def Net.Ran (n : Net) (env : String → List ℝ) : Prop :=
  (∀ c ∈ n.conns, env c.tgt = c.ix.pick (env c.src)) ∧ ∀ c ∈ n.comps, c.Ran env

/-- The constraints `equals=0.0` hold.  aviary/mission/energy_state_problem_configurator.py:407-409, 429-431. -/
def Net.Met (n : Net) (env : String → List ℝ) : Prop := ∀ z ∈ n.zeros, num env z = 0

/-- What the loop over the phases does.  aviary/core/aviary_group.py:1482-1502. -/
inductive Ev (γ : Type)
  | apply (object phase : String)
  | subsystems (phase : String)
  | set (phase : String) (guesses : γ)
  deriving DecidableEq, Repr

/-- The entry of a phase in `mission_info`: `ground_roll` of its user options, and its guesses.
aviary/core/aviary_group.py:1486-1494. -/
structure Info (γ : Type) where
  groundRoll : Option Bool
  guesses : Option γ
  deriving DecidableEq, Repr

/-- The loop from index `i` on.  aviary/core/aviary_group.py:1482-1502. -/
def guessLoop {γ : Type} (solved : Bool) (empty : γ) (objects : List String) (info : Dict String (Info γ)) :
    ℕ → List String → Except Err (List (Ev γ))
  | _, [] => .ok []
  | i, p :: ps =>
    match (if solved then (match objects[i]? with
        | Option.none => Except.error Err.indexError
        | some o => Except.ok [Ev.apply o p]) else Except.ok []), info.get? p with
    | .error e, _ => .error e
    | .ok _, Option.none => .error .keyError
    | .ok l, some d =>
      match guessLoop solved empty objects info (i + 1) ps with
      | .error e => .error e
      | .ok r =>
        if solved ∧ d.groundRoll = some true ∧ i = 0 then .ok (l ++ r)
        else .ok (l ++ [.subsystems p, .set p (d.guesses.getD empty)] ++ r)

/-- `set_initial_guesses`: nothing without a trajectory, else over the phases of the trajectory of the parent or of the group.
The parent is some problem that may or may not have a trajectory.  aviary/core/aviary_group.py:1452-1502. -/
def setGuesses {γ : Type} (solved : Bool) (empty : γ) (objects : List String) (info : Dict String (Info γ))
    (own : Option (List String)) (parent : Option (Option (List String))) (pre : String) : Except Err (List (Ev γ)) :=
  match own with
  | Option.none => .ok []
  | some ps =>
    match (if pre = "" then Option.none else parent) with
    | Option.none => guessLoop solved empty objects info 0 ps
    | some Option.none => .error .attributeError
    | some (some qs) => guessLoop solved empty objects info 0 qs

/-- `add_phases` as far as the loop needs it: one object and one phase of the trajectory for each entry, in the same order.
aviary/core/aviary_group.py:668-693, aviary/core/aviary_group.py:732-737. -/
def addPhases (names : List String) : List String × List String :=
  names.foldl (fun (s : List String × List String) n => (s.1 ++ [n], if n ∈ s.2 then s.2 else s.2 ++ [n])) ([], [])

end Verif.PostTies
