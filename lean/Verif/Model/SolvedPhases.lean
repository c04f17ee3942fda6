import Verif.Model.TwoDofPhases

/-!
# Phases of the energy method and of the solved two degree of freedom method

The options `FlightPhaseOptions` and `SolvedTwoDOFPhaseOptions`, how `build_phase` reads them, the options of the integration variable
of a solved phase, and the transcriptions (`aviary/mission/flight_phase_builder.py`,
`aviary/mission/solved_two_dof/phases/solved_twodof_phase.py`).
-/

namespace Verif.SolvedPhases

open TwoDofPhases (Decls Val Opts stateOptions controlOptions timeOptions readState readControl opt num pair flag int)
open FlightPhase (Phase Err Enforcement Allocation UserCon Subsystem addControl)

/-- The options of a phase of the energy method (`aviary/mission/flight_phase_builder.py:27-169`). -/
def energyOptions : Decls :=
  [("num_segments", .int (some 1)), ("order", .int (some 3))] ++
  stateOptions "mass" "kg" [("mass_ref", .num 10000 "kg"), ("mass_bounds", .pair (some 0) none "kg"), ("mass_direct_link", .flag true)] ++
  stateOptions "distance" "m" [("distance_ref", .num 1000000 "m"), ("distance_bounds", .pair (some 0) none "m"),
    ("distance_direct_link", .flag true)] ++
  controlOptions "altitude" "ft" [("altitude_direct_link", .flag false)] ++
  controlOptions "mach" "unitless" [("mach_ref", .num (1 / 2) "unitless"), ("mach_direct_link", .flag false)] ++
  timeOptions "s" [("initial_time_direct_link", .flag true)] ++
  [("throttle_enforcement", .plain)] ++
  controlOptions "throttle" "unitless" [("throttle_bounds", .pair (some 0) (some 1) "unitless")] ++
  [("throttle_allocation", .plain), ("required_available_climb_rate", .opt none "ft/s"), ("ground_roll", .flag false),
    ("constraints", .plain), ("reserve", .flag false), ("target_distance", .opt none "m"), ("no_climb", .flag false),
    ("no_descent", .flag false), ("transcription", .plain)]

/-- The options of a phase of the solved method (`aviary/mission/solved_two_dof/phases/solved_twodof_phase.py:26-184`). -/
def solvedOptions : Decls :=
  [("num_segments", .int (some 1)), ("order", .int (some 3))] ++
  stateOptions "mass" "lbm" [("mass_ref", .num 10000 "lbm"), ("mass_defect_ref", .opt (some 1000000) "lbm"),
    ("mass_bounds", .pair (some 0) none "lbm"), ("mass_direct_link", .flag true)] ++
  stateOptions "distance" "m" [("distance_ref", .num 1000000 "m"), ("distance_defect_ref", .opt (some 100000000) "m"),
    ("distance_bounds", .pair (some 0) none "m"), ("distance_direct_link", .flag false)] ++
  controlOptions "altitude" "ft" [("altitude_direct_link", .flag false)] ++
  controlOptions "mach" "unitless" [("mach_ref", .num (1 / 2) "unitless"), ("mach_direct_link", .flag false)] ++
  controlOptions "angle_of_attack" "deg" [("angle_of_attack_polynomial_order", .int (some 1)), ("angle_of_attack_optimize", .flag true),
    ("angle_of_attack_ref", .num 15 "deg"), ("angle_of_attack_bounds", .pair (some 0) (some 15) "deg"),
    ("angle_of_attack_initial", .opt (some 0) "deg"), ("angle_of_attack_direct_link", .flag false)] ++
  timeOptions "ft" [("time_initial_direct_link", .flag false)] ++
  [("reserve", .flag false), ("target_distance", .opt none "m"), ("ground_roll", .flag false), ("throttle_enforcement", .plain),
    ("throttle_allocation", .plain), ("no_climb", .flag false), ("no_descent", .flag false), ("constraints", .plain),
    ("required_available_climb_rate", .opt none "ft/s"), ("rotation", .flag false), ("clean", .flag false)]

/-- The transcriptions that can be asked for (`aviary/mission/flight_phase_builder.py:164-168`, `:398-426`). -/
inductive Scheme
  | collocation | picard | other
  deriving DecidableEq, Repr

/-- The options whose values are choices (`aviary/mission/flight_phase_builder.py:75-101`, `:118-125`, `:164-168`). -/
structure Choice where
  enforcement : Enforcement := .path
  allocation : Allocation := .fixed
  constraints : List (String × UserCon) := []
  scheme : Scheme := .collocation

/-- Options that no one reads. Part of the model of aviary/mission/flight_phase_builder.py:214-247. -/
def unread : FlightPhase.StateOpts :=
  { initial := none, final := none, lower := none, upper := none, units := "", ref := 1, ref0 := none, defectRef := none,
    solveSegments := false, constraintRef := none }

/-- Options of a control that no one reads. Part of the model of aviary/mission/flight_phase_builder.py:266-272. -/
def unreadControl : FlightPhase.CtrlOpts :=
  { initial := none, final := none, lower := none, upper := none, units := "", ref := 1, ref0 := none, polynomialOrder := none,
    optimize := false }

/-- The options as `build_phase` reads them: those of the distance only with the energy method, those of the throttle only if it is a
control (`aviary/mission/flight_phase_builder.py:214-272`, `:356-365`). -/
def read (energy : Bool) (o : Opts) (c : Choice) : Except Err FlightPhase.Opts := do
  let noDescent ← flag o "no_descent"
  let noClimb ← flag o "no_climb"
  let ground ← flag o "ground_roll"
  let mass ← readState o "mass"
  let distance ← if energy then readState o "distance" else pure unread
  let mach ← readControl o "mach"
  let altitude ← readControl o "altitude"
  let throttle ← if c.enforcement = .control then readControl o "throttle" else pure unreadControl
  let rate ← opt o "required_available_climb_rate"
  pure { mass := mass, distance := distance, mach := mach, altitude := altitude, throttle := throttle, enforcement := c.enforcement,
         allocation := c.allocation, noClimb := noClimb, noDescent := noDescent, groundRoll := ground, climbRate := rate,
         constraints := c.constraints }

/-- Segments and nodes: collocation with segments of an order, or one segment of Picard iterations with as many nodes as segments times
order (`aviary/mission/flight_phase_builder.py:392-428`).  A count that is `None` is an error of types, a `UserWarning` is an error
of values. -/
def transcription (o : Opts) (s : Scheme) : Except Err (ℕ × ℕ) := do
  let n ← int o "num_segments"
  let k ← int o "order"
  match n, k with
  | some n, some k =>
    match s with
    | .collocation => pure (n, k)
    | .picard => pure (1, k * n)
    | .other => .error .value
  | _, _ => .error .type

/-- A phase of the energy method (`aviary/mission/flight_phase_builder.py:192-390`). -/
def energy (engines : ℕ) (subs : List Subsystem) (o : Opts) (c : Choice) : Except Err (Phase × ℕ × ℕ) := do
  let t ← transcription o c.scheme
  let f ← read true o c
  let p ← FlightPhase.build true engines subs f
  pure (p, t)

/-- A converted pair of bounds (`aviary/utils/utils.py:53-67`). -/
def convPair (conv : String → ℚ → ℚ) (b : Option ℚ × Option ℚ × String) : Option ℚ × Option ℚ :=
  (b.1.map (conv b.2.2), b.2.1.map (conv b.2.2))

/-- The options of the integration variable, the distance, and of the state of the time
(`aviary/mission/solved_two_dof/phases/solved_twodof_phase.py:222-253`). -/
structure TimeCall where
  fixInitial : Bool
  fixDuration : Bool
  initialBounds : Option (Option ℚ × Option ℚ) := none
  initialRef : Option ℚ := none
  durationBounds : Option (Option ℚ × Option ℚ) := none
  durationRef : Option ℚ := none
  stateFixInitial : Bool
  deriving DecidableEq, Repr

/-- `set_time_options` and `set_state_options('time')` of a solved phase; `conv` converts to feet
(`aviary/mission/solved_two_dof/phases/solved_twodof_phase.py:211-253`). -/
def timeCall (conv : String → ℚ → ℚ) (o : Opts) : Except Err TimeCall := do
  let initial ← opt o "time_initial"
  let duration ← opt o "time_duration"
  let ib ← pair o "time_initial_bounds"
  let db ← pair o "time_duration_bounds"
  let ir ← num o "time_initial_ref"
  let dr ← num o "time_duration_ref"
  let fi := initial.isSome
  let fd := duration.isSome
  pure { fixInitial := fi, fixDuration := fd,
         initialBounds := if fi then none else some (convPair conv ib),
         initialRef := if fi then none else some (conv ir.2 ir.1),
         durationBounds := if fd then none else some (convPair conv db),
         durationRef := if fd then none else some (conv dr.2 dr.1),
         stateFixInitial := fi }

/-- The phase of the solved method (`aviary/mission/solved_two_dof/phases/solved_twodof_phase.py:191-283`). -/
structure Solved where
  phase : Phase
  nodes : ℕ × ℕ
  time : TimeCall

/-- `SolvedTwoDOFPhase.build_phase` (`aviary/mission/solved_two_dof/phases/solved_twodof_phase.py:191-268`). -/
def solved (conv : String → ℚ → ℚ) (engines : ℕ) (subs : List Subsystem) (o : Opts) (c : Choice) : Except Err Solved := do
  let n ← transcription o .collocation
  let f ← read false o c
  let p ← FlightPhase.build false engines subs f
  let t ← timeCall conv o
  let rot ← flag o "rotation"
  let p ← if rot then do
      let a ← readControl o "angle_of_attack"
      pure (addControl p a "angle_of_attack" none none true)
    else pure p
  pure { phase := { p with timeseries := p.timeseries ++ ["EAS", "drag", "lift", "thrust_req", "velocity"] }, nodes := n, time := t }

/-- `get_linked_variables` (`aviary/mission/flight_phase_builder.py:430-438`). -/
def energyLinks : List String := ["altitude", "distance", "mach", "mass", "time"]

/-- `get_linked_variables` (`aviary/mission/solved_two_dof/phases/solved_twodof_phase.py:298-307`). -/
def solvedLinks : List String := ["altitude", "distance", "angle_of_attack", "mach", "mass", "time"]

end Verif.SolvedPhases
