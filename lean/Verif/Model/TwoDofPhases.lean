import Verif.Model.FlightPhase
import Verif.Model.LinkPhases

/-!
# Phase builders of the two degree of freedom missions

`TakeoffPhase`, `AccelPhase`, `FlightPhase`, `SimpleCruisePhase`, `BreguetCruisePhase` of
`aviary/mission/two_dof/phases` and `GroundrollPhase` of `aviary/mission/solved_two_dof/phases`, with the options they
declare.  Options have rational values; angles are in degrees.  External subsystems and the constraints of the user
(property C76) are left out.
-/

namespace Verif.TwoDofPhases

open FlightPhase (Phase StateOpts CtrlOpts Con Err addState addControl)

/-- How the speed is given (`aviary/mission/two_dof/phases/flight_phase.py:97-103`). -/
inductive Speed
  | mach | eas | tas
  deriving DecidableEq, Repr

/-- Value of an option: a number with units, one that may be `None`, a pair of bounds, a truth value, a count that may be
`None`, a plain number, a kind of speed, anything else.  Part of the model of aviary/utils/aviary_options_dict.py:84-117. -/
inductive Val
  | num (v : ℚ) (units : String)
  | opt (v : Option ℚ) (units : String)
  | pair (lo hi : Option ℚ) (units : String)
  | flag (b : Bool)
  | int (n : Option ℕ)
  | raw (v : ℚ)
  | speed (s : Speed)
  | plain
  deriving DecidableEq, Repr

/-- The kinds of values. Part of the model of aviary/utils/aviary_options_dict.py:84-117. -/
inductive Kind
  | num | opt | pair | flag | int | raw | speed | plain
  deriving DecidableEq, Repr

/-- The kind of a value. Part of the model of aviary/utils/aviary_options_dict.py:84-117. -/
def Val.kind : Val → Kind
  | .num _ _ => .num
  | .opt _ _ => .opt
  | .pair _ _ _ => .pair
  | .flag _ => .flag
  | .int _ => .int
  | .raw _ => .raw
  | .speed _ => .speed
  | .plain => .plain

/-- Options with their defaults, in the order of declaration.
Part of the model of aviary/utils/aviary_options_dict.py:84-117. -/
abbrev Decls := List (String × Val)

/-- `defaults.get(name, default)` (`aviary/utils/aviary_options_dict.py:184-185`). -/
def dflt (d : Decls) (name : String) (v : Val) : String × Val := (name, (d.lookup name).getD v)

/-- `add_state_options` (`aviary/utils/aviary_options_dict.py:166-302`). -/
def stateOptions (n u : String) (d : Decls) : Decls :=
  [dflt d (n ++ "_initial") (.opt none u), dflt d (n ++ "_final") (.opt none u),
    dflt d (n ++ "_bounds") (.pair none none u), dflt d (n ++ "_ref") (.num 1 u),
    dflt d (n ++ "_ref0") (.opt none u), dflt d (n ++ "_defect_ref") (.opt none u),
    dflt d (n ++ "_solve_segments") (.flag false), dflt d (n ++ "_constraint_ref") (.opt none u),
    dflt d (n ++ "_direct_link") (.flag true)]

/-- `add_control_options` (`aviary/utils/aviary_options_dict.py:304-424`). -/
def controlOptions (n u : String) (d : Decls) : Decls :=
  [dflt d (n ++ "_optimize") (.flag true), dflt d (n ++ "_initial") (.opt none u),
    dflt d (n ++ "_final") (.opt none u), dflt d (n ++ "_bounds") (.pair none none u),
    dflt d (n ++ "_ref") (.num 1 u), dflt d (n ++ "_ref0") (.opt none u),
    dflt d (n ++ "_polynomial_order") (.int none), dflt d (n ++ "_direct_link") (.flag true)]

/-- `add_time_options` (`aviary/utils/aviary_options_dict.py:426-493`). -/
def timeOptions (u : String) (d : Decls) : Decls :=
  [dflt d "time_initial" (.opt none u), dflt d "time_initial_bounds" (.pair none none u),
    dflt d "time_initial_ref" (.num 1 u), dflt d "time_duration" (.opt none u),
    dflt d "time_duration_bounds" (.pair none none u), dflt d "time_duration_ref" (.num 1 u),
    dflt d "time_initial_direct_link" (.flag true)]

/-- The builders. Part of the model of aviary/mission/two_dof/phases/takeoff_phase.py:155-341. -/
inductive Builder
  | takeoff | accel | flight | simple | breguet | groundroll
  deriving DecidableEq, Repr

/-- `reserve` and `target_distance`, declared alike by all phases of the mission
(`aviary/mission/two_dof/phases/accel_phase.py:50-67`). -/
def common : Decls := [("reserve", .flag false), ("target_distance", .opt none "m")]

/-- The options of a takeoff phase (`aviary/mission/two_dof/phases/takeoff_phase.py:17-152`).  Simplified: the bounds and references of the
angles are written in degrees, the code gives the same angles in radians. -/
def takeoffOptions : Decls :=
  [("num_segments", .int (some 1)), ("order", .int (some 3))] ++
  stateOptions "mass" "lbm" [("mass_bounds", .pair (some 0) (some 200000) "lbm"), ("mass_ref", .num 100000 "lbm"),
    ("mass_defect_ref", .opt (some 100) "lbm"), ("mass_direct_link", .flag false)] ++
  timeOptions "s" [("time_duration_bounds", .pair (some 1) (some 100) "s"), ("initial_time_direct_link", .flag true)] ++
  stateOptions "distance" "ft" [("distance_bounds", .pair (some 0) (some 10000) "ft"), ("distance_ref", .num 3000 "ft"),
    ("distance_direct_link", .flag true)] ++
  stateOptions "velocity" "kn" [("velocity_bounds", .pair (some 0) (some 1000) "kn"), ("velocity_ref", .num 100 "kn")] ++
  stateOptions "altitude" "ft" [("altitude_ref", .num 100 "ft"), ("altitude_bounds", .pair (some 0) (some 700) "ft"),
    ("altitude_constraint_ref", .opt (some 100) "ft"), ("altitude_direct_link", .flag false)] ++
  stateOptions "flight_path_angle" "rad" [("flight_path_angle_ref", .num 1 "deg"),
    ("flight_path_angle_bounds", .pair (some (-15)) (some 25) "deg")] ++
  (let d : Decls := [("angle_of_attack_ref", .num 15 "deg"), ("angle_of_attack_bounds", .pair (some (-30)) (some 30) "deg"),
    ("angle_of_attack_optimize", .flag true), ("angle_of_attack_direct_link", .flag false)]
  stateOptions "angle_of_attack" "rad" d ++ controlOptions "angle_of_attack" "rad" d) ++
  [("ground_roll", .flag false), ("rotation", .flag false)] ++ common ++
  [("normal_ref", .num 1 "lbf"), ("normal_ref0", .num 0 "lbf"),
    ("pitch_constraint_bounds", .pair (some 0) (some 15) "deg"), ("pitch_constraint_ref", .num 1 "deg")]

/-- The options of an acceleration (`aviary/mission/two_dof/phases/accel_phase.py:14-83`). -/
def accelOptions : Decls :=
  [("num_segments", .int (some 1)), ("order", .int (some 3))] ++
  stateOptions "mass" "lbm" [("mass_bounds", .pair (some 0) none "lbm"), ("mass_direct_link", .flag false)] ++
  stateOptions "distance" "NM" [("distance_bounds", .pair (some 0) none "NM"), ("distance_direct_link", .flag true)] ++
  stateOptions "velocity" "kn" [("velocity_bounds", .pair (some 0) none "kn"), ("velocity_direct_link", .flag true)] ++
  timeOptions "s" [("initial_time_direct_link", .flag true)] ++ common ++
  [("EAS_constraint_eq", .num 250 "kn"), ("alt", .num 500 "ft")]

/-- The options of a flight phase (`aviary/mission/two_dof/phases/flight_phase.py:16-111`). -/
def flightOptions : Decls :=
  [("num_segments", .int none), ("order", .int none)] ++
  stateOptions "mass" "lbm" [("mass_bounds", .pair (some 0) none "lbm"), ("mass_direct_link", .flag false)] ++
  stateOptions "distance" "NM" [("distance_bounds", .pair (some 0) none "NM"), ("distance_direct_link", .flag true)] ++
  stateOptions "altitude" "ft" [("altitude_bounds", .pair (some 0) none "ft"), ("altitude_direct_link", .flag true)] ++
  timeOptions "s" [("initial_time_direct_link", .flag true)] ++ common ++
  [("required_available_climb_rate", .opt none "ft/min"), ("EAS_target", .num 0 "kn"), ("mach_target", .raw 0),
    ("input_speed_type", .speed .mach), ("constraints", .plain)]

/-- The options of a simple cruise (`aviary/mission/two_dof/phases/simple_cruise_phase.py:10-86`). -/
def simpleOptions : Decls :=
  [("num_segments", .int (some 5)), ("order", .int (some 3))] ++
  stateOptions "mass" "lbm" [("mass_bounds", .pair (some 0) none "lbm"), ("mass_direct_link", .flag false)] ++
  timeOptions "s" [("time_duration_bounds", .pair (some 0) (some 3600) "s"),
    ("time_initial_bounds", .pair (some 0) (some 100) "s"), ("initial_time_direct_link", .flag true)] ++
  [("alt_cruise", .num 0 "ft"), ("mach_cruise", .raw 0)] ++ common ++
  [("altitude_direct_link", .flag false), ("distance_direct_link", .flag false), ("mach_direct_link", .flag true)]

/-- The options of a Breguet cruise (`aviary/mission/two_dof/phases/breguet_cruise_phase.py:13-90`). -/
def breguetOptions : Decls :=
  [("alt_cruise", .num 0 "ft"), ("mach_cruise", .raw 0)] ++ common ++
  [("time_duration", .opt none "s"), ("time_duration_bounds", .pair (some 0) (some 3600) "s"),
    ("time_initial_bounds", .pair (some 0) (some 100) "s"), ("time_initial_direct_link", .flag true),
    ("altitude_direct_link", .flag true), ("distance_direct_link", .flag true), ("mass_direct_link", .flag false)]

/-- The options of a ground roll (`aviary/mission/solved_two_dof/phases/groundroll_phase.py:24-82`). -/
def groundrollOptions : Decls :=
  [("num_segments", .int (some 5)), ("order", .int (some 3))] ++
  timeOptions "kn" [("time_initial_bounds", .pair (some 0) (some 100) "kn"),
    ("time_duration_bounds", .pair (some 0) (some 3600) "kn"), ("time_initial_ref", .num 100 "kn"),
    ("time_duration_ref", .num 100 "kn"), ("time_initial_direct_link", .flag false)] ++
  stateOptions "mass" "lbm" [("mass_bounds", .pair (some 1) none "lbm"), ("mass_ref", .num 100000 "lbm"),
    ("mass_defect_ref", .opt (some 100000) "lbm")] ++
  stateOptions "distance" "ft" [("distance_ref", .num 1000 "ft"), ("distance_defect_ref", .opt (some 1000) "ft"),
    ("distance_bounds", .pair (some 0) none "ft")] ++
  [("constraints", .plain), ("ground_roll", .flag false)]

/-- The options of a builder. Part of the model of aviary/mission/phase_builder.py:133-134. -/
def options : Builder → Decls
  | .takeoff => takeoffOptions
  | .accel => accelOptions
  | .flight => flightOptions
  | .simple => simpleOptions
  | .breguet => breguetOptions
  | .groundroll => groundrollOptions

/-! ## Reading options -/

/-- The options of a phase as they are read. Part of the model of aviary/utils/aviary_options_dict.py:119-149. -/
abbrev Opts := String → Option Val

/-- A number (`aviary/utils/aviary_options_dict.py:133-149`). -/
def num (o : Opts) (k : String) : Except Err (ℚ × String) :=
  match o k with
  | none => .error .key
  | some (.num v u) => .ok (v, u)
  | some _ => .error .type

/-- A number or `None` (`aviary/utils/aviary_options_dict.py:133-149`). -/
def opt (o : Opts) (k : String) : Except Err (Option ℚ) :=
  match o k with
  | none => .error .key
  | some (.opt v _) => .ok v
  | some _ => .error .type

/-- Bounds (`aviary/utils/aviary_options_dict.py:133-149`). -/
def pair (o : Opts) (k : String) : Except Err (Option ℚ × Option ℚ × String) :=
  match o k with
  | none => .error .key
  | some (.pair l h u) => .ok (l, h, u)
  | some _ => .error .type

/-- A truth value (`aviary/utils/aviary_options_dict.py:146-147`). -/
def flag (o : Opts) (k : String) : Except Err Bool :=
  match o k with
  | none => .error .key
  | some (.flag b) => .ok b
  | some _ => .error .type

/-- A count (`aviary/utils/aviary_options_dict.py:146-147`). -/
def int (o : Opts) (k : String) : Except Err (Option ℕ) :=
  match o k with
  | none => .error .key
  | some (.int n) => .ok n
  | some _ => .error .type

/-- A number without units (`aviary/utils/aviary_options_dict.py:146-147`). -/
def raw (o : Opts) (k : String) : Except Err ℚ :=
  match o k with
  | none => .error .key
  | some (.raw v) => .ok v
  | some _ => .error .type

/-- The kind of speed (`aviary/mission/two_dof/phases/flight_phase.py:142`). -/
def speed (o : Opts) (k : String) : Except Err Speed :=
  match o k with
  | none => .error .key
  | some (.speed v) => .ok v
  | some _ => .error .type

/-- The options read by `add_state` (`aviary/mission/phase_builder.py:405-413`, `:438`). -/
def readState (o : Opts) (n : String) : Except Err StateOpts := do
  let initial ← opt o (n ++ "_initial")
  let final ← opt o (n ++ "_final")
  let b ← pair o (n ++ "_bounds")
  let ref ← num o (n ++ "_ref")
  let ref0 ← opt o (n ++ "_ref0")
  let defect ← opt o (n ++ "_defect_ref")
  let solve ← flag o (n ++ "_solve_segments")
  let cref ← if final.isSome then opt o (n ++ "_constraint_ref") else pure none
  pure { initial := initial, final := final, lower := b.1, upper := b.2.1, units := b.2.2, ref := ref.1, ref0 := ref0,
         defectRef := defect, solveSegments := solve, constraintRef := cref }

/-- The options read by `add_control` (`aviary/mission/phase_builder.py:472-482`). -/
def readControl (o : Opts) (n : String) : Except Err CtrlOpts := do
  let initial ← opt o (n ++ "_initial")
  let final ← opt o (n ++ "_final")
  let b ← pair o (n ++ "_bounds")
  let ref ← num o (n ++ "_ref")
  let ref0 ← opt o (n ++ "_ref0")
  let poly ← int o (n ++ "_polynomial_order")
  let optimize ← flag o (n ++ "_optimize")
  pure { initial := initial, final := final, lower := b.1, upper := b.2.1, units := b.2.2, ref := ref.1, ref0 := ref0,
         polynomialOrder := poly, optimize := optimize }

/-- `self.add_state(name, target, rate_source)` (`aviary/mission/phase_builder.py:390-449`). -/
def state (o : Opts) (n rate : String) (p : Phase) : Except Err Phase := do
  let s ← readState o n
  pure (addState p s n rate)

/-- `self.add_control(name, target)` (`aviary/mission/phase_builder.py:451-531`). -/
def control (o : Opts) (n : String) (p : Phase) : Except Err Phase := do
  let c ← readControl o n
  pure (addControl p c n none none true)

/-! ## The builders -/

/-- A built phase: the calls, the parameters with their values and whether they are optimised, the segments and order of
the transcription, and the variable that is integrated over with its state of time.
Part of the model of aviary/mission/phase_builder.py:155-221. -/
structure Built where
  phase : Phase
  params : List (String × ℚ × Bool) := []
  transcription : Option (Option ℕ × Option ℕ)
  over : String := "time"
  timeState : Option String := none
  timeBounds : Option (Option ℚ × Option ℚ) := none
  outputs : List String := []

/-- `make_default_transcription` (`aviary/mission/phase_builder.py:223-232`). -/
def transcription (o : Opts) : Except Err (Option (Option ℕ × Option ℕ)) := do
  let n ← int o "num_segments"
  let k ← int o "order"
  pure (some (n, k))

/-- A constraint. Part of the model of aviary/mission/two_dof/phases/takeoff_phase.py:245-272. -/
def addCon (c : Con) (p : Phase) : Phase := { p with cons := p.cons ++ [c] }

/-- `TakeoffPhase.build_phase` (`aviary/mission/two_dof/phases/takeoff_phase.py:176-281`). -/
def takeoff (o : Opts) : Except Err Built := do
  let tx ← transcription o
  let gr ← flag o "ground_roll"
  let rot ← flag o "rotation"
  let pb ← pair o "pitch_constraint_bounds"
  let pr ← num o "pitch_constraint_ref"
  let p : Phase := {}
  let p ← if rot then state o "angle_of_attack" "angle_of_attack_rate" p else pure p
  let p ← if !(gr || rot) then do
      let p ← state o "flight_path_angle" "flight_path_angle_rate" p
      state o "altitude" "altitude_rate" p
    else pure p
  let p ← state o "velocity" "velocity_rate" p
  let p ← state o "mass" "fuel_flow_rate_negative_total" p
  let p ← state o "distance" "distance_rate" p
  let p ← if !(gr || rot) then control o "angle_of_attack" p else pure p
  let t : ℚ × ℚ := if gr || rot then (100, 100) else (153 / 4, 4821 / 100)
  let p ← if rot then do
      let r ← num o "normal_ref"
      let _ ← num o "normal_ref0"
      pure (addCon { target := "normal_force", loc := some .final, equals := some 0, units := some "lbf", ref := some r.1 } p)
    else pure p
  let p := if !(gr || rot) then
      addCon { target := "fuselage_pitch", aliasName := some "theta", loc := none, lower := pb.1, upper := pb.2.1, units := some "deg",
               ref := some pr.1 }
        (addCon { target := "load_factor", loc := none, lower := some 0, upper := some (11 / 10) } p)
    else p
  pure { phase := p, params := [("t_init_gear", t.1, false), ("t_init_flaps", t.2, false)], transcription := tx,
         outputs := ["drag", "EAS", "theta", "lift", "mach", "normal_force", "time", "thrust"] }

/-- `AccelPhase.build_phase` (`aviary/mission/two_dof/phases/accel_phase.py:110-156`). -/
def accel (o : Opts) : Except Err Built := do
  let tx ← transcription o
  let eas ← num o "EAS_constraint_eq"
  let alt ← num o "alt"
  let p ← state o "velocity" "velocity_rate" {}
  let p ← state o "mass" "fuel_flow_rate_negative_total" p
  let p ← state o "distance" "distance_rate" p
  pure { phase := addCon { target := "EAS", loc := some .final, equals := some eas.1, units := some "kn", ref := some eas.1 } p,
         params := [("altitude", alt.1, false)], transcription := tx,
         outputs := ["angle_of_attack", "drag", "EAS", "lift", "mach", "thrust"] }

/-- `FlightPhase.build_phase` (`aviary/mission/two_dof/phases/flight_phase.py:137-192`). -/
def flight (o : Opts) : Except Err Built := do
  let tx ← transcription o
  let sp ← speed o "input_speed_type"
  let eas ← num o "EAS_target"
  let climb ← opt o "required_available_climb_rate"
  let p ← state o "altitude" "altitude_rate" {}
  let p ← state o "mass" "fuel_flow_rate_negative_total" p
  let p ← state o "distance" "distance_rate" p
  let p := match climb with
    | some r => addCon { target := "altitude_rate", loc := some .final, lower := some r, units := some "ft/min", ref := some 1 } p
    | none => p
  pure { phase := p, params := if sp = .eas then [("EAS", eas.1, false)] else [], transcription := tx,
         outputs := ["angle_of_attack", "drag", "EAS", "flight_path_angle", "fuel_flow_rate_negative_total", "lift", "mach",
           "TAS_violation", "theta", "thrust", "velocity"] }

/-- `SimpleCruisePhase.build_phase` (`aviary/mission/two_dof/phases/simple_cruise_phase.py:134-191`). -/
def simple (o : Opts) : Except Err Built := do
  let tx ← transcription o
  let p ← state o "mass" "fuel_flow_rate_negative_total" {}
  let mach ← raw o "mach_cruise"
  let alt ← num o "alt_cruise"
  pure { phase := p, params := [("altitude", alt.1, false), ("mach", mach, false), ("initial_distance", 0, true)],
         transcription := tx,
         outputs := ["altitude", "angle_of_attack", "distance", "drag", "EAS", "fuel_flow_rate_negative_total", "lift", "mach",
           "mass", "thrust", "velocity"] }

/-- `BreguetCruisePhase.build_phase`: an analytic phase without transcription
(`aviary/mission/two_dof/phases/breguet_cruise_phase.py:149-186`). -/
def breguet (o : Opts) : Except Err Built := do
  let mach ← raw o "mach_cruise"
  let alt ← num o "alt_cruise"
  pure { phase := {}, params := [("altitude", alt.1, false), ("mach", mach, false), ("initial_distance", 0, false),
    ("initial_time", 0, false)], transcription := none,
         outputs := ["distance", "distance", "drag", "lift", "mass", "time"] }

/-- `GroundrollPhase.build_phase`: integrated over the velocity
(`aviary/mission/solved_two_dof/phases/groundroll_phase.py:102-171`). -/
def groundroll (o : Opts) : Except Err Built := do
  let tx ← transcription o
  let b ← pair o "time_duration_bounds"
  let _ ← num o "time_duration_ref"
  let p ← state o "mass" "dmass_dv" {}
  let p ← state o "distance" "over_a" p
  pure { phase := p, params := [("t_init_gear", 323 / 10, false), ("t_init_flaps", 44, false), ("wing_area", 1370, false)],
         transcription := tx, over := "velocity", timeState := some "dt_dv", timeBounds := some (b.1, b.2.1),
         outputs := ["angle_of_attack", "drag", "EAS", "lift", "mach", "mass", "normal_force", "thrust", "time", "velocity"] }

/-- `build_phase` of a builder. Part of the model of aviary/mission/phase_builder.py:155-221. -/
def build : Builder → Opts → Except Err Built
  | .takeoff => takeoff
  | .accel => accel
  | .flight => flight
  | .simple => simple
  | .breguet => breguet
  | .groundroll => groundroll

/-- `get_linked_variables` (`aviary/mission/two_dof/phases/takeoff_phase.py:291-308`,
`aviary/mission/two_dof/phases/accel_phase.py:158-165`, `aviary/mission/two_dof/phases/flight_phase.py:203-210`,
`aviary/mission/two_dof/phases/simple_cruise_phase.py:193-201`,
`aviary/mission/two_dof/phases/breguet_cruise_phase.py:188-196`,
`aviary/mission/solved_two_dof/phases/groundroll_phase.py:198-205`). -/
def links (gr rot : Bool) : Builder → List String
  | .takeoff => ["distance", "velocity", "mass", "time"] ++ (if !(gr || rot) then ["altitude"] else []) ++
      (if !gr then ["angle_of_attack"] else [])
  | .accel => ["distance", "velocity", "mass", "time"]
  | .flight => ["altitude", "distance", "mass", "time"]
  | .simple => ["time", "initial_distance", "mach", "altitude", "mass"]
  | .breguet => ["initial_time", "initial_distance", "altitude", "mach", "mass"]
  | .groundroll => ["distance", "mach", "mass", "time"]

end Verif.TwoDofPhases
