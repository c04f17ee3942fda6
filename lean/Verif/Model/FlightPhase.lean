import Mathlib.Data.Rat.Defs
import Mathlib.Algebra.Order.Ring.Rat
import Mathlib.Algebra.Order.Group.Unbundled.Abs
import Mathlib.Algebra.Order.Group.Abs
import Mathlib.Data.Rat.Lemmas

/-!
# Construction of flight phases from the user options

Model of `add_state`, `add_control`, `_add_user_defined_constraints`, `add_subsystem_variables_to_phase`
(aviary/mission/phase_builder.py:300-604) and of `FlightPhaseBase.build_phase`
(aviary/mission/flight_phase_builder.py:170-390).  The dymos phase is the record of the calls made on it, in the order
of the calls; dymos' own checks of the calls are not modelled.  Numbers are rational, options are those of
`AviaryOptionsDictionary` after unit conversion (property C69), `None` is `none`.
-/

namespace Verif.FlightPhase

/-- Options `<name>_initial`, `_final`, `_bounds`, `_ref`, `_ref0`, `_defect_ref`, `_solve_segments`,
`_constraint_ref` of a state, aviary/utils/aviary_options_dict.py:148-272. -/
structure StateOpts where
  initial : Option ℚ := none
  final : Option ℚ := none
  lower : Option ℚ := none
  upper : Option ℚ := none
  units : String
  ref : ℚ := 1
  ref0 : Option ℚ := none
  defectRef : Option ℚ := none
  solveSegments : Bool := false
  constraintRef : Option ℚ := none
  deriving DecidableEq

/-- Options of a control, aviary/utils/aviary_options_dict.py:303-424. -/
structure CtrlOpts where
  initial : Option ℚ := none
  final : Option ℚ := none
  lower : Option ℚ := none
  upper : Option ℚ := none
  units : String
  ref : ℚ := 1
  ref0 : Option ℚ := none
  polynomialOrder : Option ℕ := none
  optimize : Bool := true
  deriving DecidableEq

/-- End of the phase a boundary constraint refers to. Part of the model of aviary/mission/phase_builder.py:385-450. -/
inductive Loc | initial | final
  deriving DecidableEq

/-- One call of `add_boundary_constraint` (`loc` given) or `add_path_constraint` (`loc = none`).
Part of the model of aviary/mission/phase_builder.py:385-450. -/
structure Con where
  target : String
  aliasName : Option String := none
  loc : Option Loc
  lower : Option ℚ := none
  upper : Option ℚ := none
  equals : Option ℚ := none
  units : Option String := none
  ref : Option ℚ := none
  deriving DecidableEq

/-- One call of `add_state`. Part of the model of aviary/mission/phase_builder.py:385-450. -/
structure StateCall where
  name : String
  fixInitial : Bool
  lower : Option ℚ
  upper : Option ℚ
  units : String
  rateSource : String
  ref : ℚ
  ref0 : Option ℚ
  defectRef : Option ℚ
  forward : Bool
  deriving DecidableEq

/-- One call of `add_control`; `scaling` is present when the control is optimised.
Part of the model of aviary/mission/phase_builder.py:385-450. -/
structure CtrlCall where
  name : String
  opt : Bool
  polynomial : Option ℕ
  lower : Option ℚ
  upper : Option ℚ
  ref : Option ℚ
  ref0 : Option ℚ
  units : Option String
  rateTargets : Option (List String)
  rate2Targets : Option (List String)
  deriving DecidableEq

/-- `throttle_allocations` as control (`dynamic`) or parameter.
Part of the model of aviary/mission/phase_builder.py:385-450. -/
structure AllocCall where
  dynamic : Bool
  val : List ℚ
  opt : Bool
  lower : Option ℚ
  upper : Option ℚ
  deriving DecidableEq

/-- The calls made on a phase. Part of the model of aviary/mission/phase_builder.py:385-450. -/
structure Phase where
  states : List StateCall := []
  controls : List CtrlCall := []
  allocs : List AllocCall := []
  cons : List Con := []
  timeseries : List String := []
  deriving DecidableEq

/-- aviary/mission/phase_builder.py:385-450. `constraint_ref` is computed and then not used: the boundary constraint
gets `ref=final`. -/
def addState (p : Phase) (o : StateOpts) (target rateSource : String) : Phase :=
  let p := { p with states := p.states ++ [{
    name := target, fixInitial := o.initial.isSome, lower := o.lower, upper := o.upper, units := o.units,
    rateSource := rateSource, ref := o.ref, ref0 := o.ref0, defectRef := o.defectRef,
    forward := o.solveSegments }] }
  match o.final with
  | none => p
  | some f => { p with cons := p.cons ++ [{
      target := target, loc := some .final, equals := some f, units := some o.units, ref := some f }] }

/-- `np.max(np.abs(np.array(candidates)))`, 0 for no candidates (that case is not reached).
Part of the model of aviary/mission/phase_builder.py:483-487. -/
def maxAbs (l : List ℚ) : ℚ := l.foldr (fun x m => max |x| m) 0

/-- The reference value of a control, aviary/mission/phase_builder.py:483-487. -/
def ctrlRef (o : CtrlOpts) : ℚ :=
  if o.ref = 1 then
    let candidates := [o.lower, o.upper, o.initial, o.final].filterMap id
    if candidates.length > 0 then maxAbs candidates else o.ref
  else o.ref

/-- aviary/mission/phase_builder.py:452-533. -/
def addControl (p : Phase) (o : CtrlOpts) (target : String) (rateTargets rate2Targets : Option (List String))
    (addConstraints : Bool) : Phase :=
  let ref := ctrlRef o
  let p := { p with
    controls := p.controls ++ [{
      name := target, opt := o.optimize, polynomial := o.polynomialOrder,
      lower := if o.optimize then o.lower else none, upper := if o.optimize then o.upper else none,
      ref := if o.optimize then some ref else none, ref0 := if o.optimize then o.ref0 else none,
      units := if o.units = "unitless" then none else some o.units,
      rateTargets := rateTargets, rate2Targets := rate2Targets }]
    timeseries := p.timeseries ++ [target] }
  if !addConstraints then p
  else
    let c1 := match o.optimize, o.initial with
      | true, some v => [{
          target := target, loc := some .initial, equals := some v, units := some o.units, ref := some ref : Con }]
      | _, _ => []
    let c2 := match o.optimize, o.final with
      | true, some v => [{
          target := target, loc := some .final, equals := some v, units := some o.units, ref := some ref : Con }]
      | _, _ => []
    { p with cons := p.cons ++ c1 ++ c2 }

/-- One entry of the `constraints` option: the keyword arguments of the dymos call plus `type` and `target`.
Part of the model of aviary/mission/phase_builder.py:362-383. -/
structure UserCon where
  type : Option String
  target : Option String := none
  loc : Option Loc := none
  lower : Option ℚ := none
  upper : Option ℚ := none
  equals : Option ℚ := none
  units : Option String := none
  ref : Option ℚ := none
  deriving DecidableEq

/-- Exceptions: missing `type` key, invalid type, arguments dymos' methods do not have or miss, missing attribute.
Part of the model of aviary/mission/phase_builder.py:362-383. -/
inductive Err | key | value | type | attribute
  deriving DecidableEq

/-- One constraint of `_add_user_defined_constraints`, aviary/mission/phase_builder.py:362-383.
`add_boundary_constraint` needs `loc`, `add_path_constraint` has neither `loc` nor `target`. -/
def userCon (name : String) (c : UserCon) : Except Err Con :=
  match c.type with
  | none => .error .key
  | some "boundary" =>
    match c.loc, c.target with
    | none, _ => .error .type
    | some l, some t => .ok {
        target := t, aliasName := some name, loc := some l, lower := c.lower, upper := c.upper, equals := c.equals,
        units := c.units, ref := c.ref }
    | some l, none => .ok {
        target := name, loc := some l, lower := c.lower, upper := c.upper, equals := c.equals, units := c.units,
        ref := c.ref }
  | some "path" =>
    match c.loc, c.target with
    | none, none => .ok {
        target := name, loc := none, lower := c.lower, upper := c.upper, equals := c.equals, units := c.units,
        ref := c.ref }
    | _, _ => .error .type
  | some _ => .error .value

/-- The loop of `_add_user_defined_constraints`.
Part of the model of aviary/mission/flight_phase_builder.py:170-390. -/
def userCons : List (String × UserCon) → Except Err (List Con)
  | [] => .ok []
  | (n, c) :: r =>
    match userCon n c with
    | .error e => .error e
    | .ok x => match userCons r with
      | .error e => .error e
      | .ok xs => .ok (x :: xs)

/-- What a subsystem builder contributes; states and controls as finished calls.
Part of the model of aviary/mission/phase_builder.py:535-604. -/
structure Subsystem where
  states : List StateCall := []
  controls : List CtrlCall := []
  constraints : List (String × UserCon) := []

/-- One constraint of a subsystem, aviary/mission/phase_builder.py:589-602; `target` is not popped, so dymos gets an
unknown argument, and the message of the last branch reads `subsystem.pathname`, which builders do not have. -/
def subsystemCon (name : String) (c : UserCon) : Except Err Con :=
  match c.type with
  | none => .error .key
  | some "boundary" =>
    match c.loc, c.target with
    | some l, none => .ok {
        target := name, loc := some l, lower := c.lower, upper := c.upper, equals := c.equals, units := c.units,
        ref := c.ref }
    | _, _ => .error .type
  | some "path" =>
    match c.loc, c.target with
    | none, none => .ok {
        target := name, loc := none, lower := c.lower, upper := c.upper, equals := c.equals, units := c.units,
        ref := c.ref }
    | _, _ => .error .type
  | some _ => .error .attribute

/-- Constraint loop for one subsystem. Part of the model of aviary/mission/phase_builder.py:535-604. -/
def subsystemCons : List (String × UserCon) → Except Err (List Con)
  | [] => .ok []
  | (n, c) :: r =>
    match subsystemCon n c with
    | .error e => .error e
    | .ok x => match subsystemCons r with
      | .error e => .error e
      | .ok xs => .ok (x :: xs)

/-- `add_subsystem_variables_to_phase` for a phase that is not analytic, aviary/mission/phase_builder.py:535-604. -/
def addSubsystems : Phase → List Subsystem → Except Err Phase
  | p, [] => .ok p
  | p, s :: r =>
    match subsystemCons s.constraints with
    | .error e => .error e
    | .ok cs => addSubsystems {
        p with states := p.states ++ s.states, controls := p.controls ++ s.controls, cons := p.cons ++ cs } r

/-- Values of `throttle_enforcement`, aviary/mission/flight_phase_builder.py:72-80. -/
inductive Enforcement | path | boundary | bounded | control | none
  deriving DecidableEq

/-- Values of `throttle_allocation`. Part of the model of aviary/mission/flight_phase_builder.py:348-388. -/
inductive Allocation | fixed | static | dynamic
  deriving DecidableEq

/-- The options `FlightPhaseBase.build_phase` reads.
Part of the model of aviary/mission/flight_phase_builder.py:348-388. -/
structure Opts where
  mass : StateOpts
  distance : StateOpts
  mach : CtrlOpts
  altitude : CtrlOpts
  throttle : CtrlOpts
  enforcement : Enforcement := .path
  allocation : Allocation := .fixed
  noClimb : Bool := false
  noDescent : Bool := false
  groundRoll : Bool := false
  climbRate : Option ℚ := none
  climbRateUnits : String := "ft/s"
  constraints : List (String × UserCon) := []

/-- `x in constraints`. Part of the model of aviary/mission/flight_phase_builder.py:348-388. -/
def Opts.has (o : Opts) (x : String) : Bool := o.constraints.any (·.1 == x)

/-- Throttle allocation for several engine types, aviary/mission/flight_phase_builder.py:276-313. -/
def allocCalls (energyState : Bool) (numEngineType : ℕ) (a : Allocation) : List AllocCall :=
  if energyState && decide (numEngineType > 1) then
    let val := List.replicate (numEngineType - 1) (1 * (1 / (numEngineType : ℚ)))
    match a with
    | .dynamic => [{ dynamic := true, val := val, opt := true, lower := some 0, upper := some 1 }]
    | .static => [{ dynamic := false, val := val, opt := true, lower := some 0, upper := some 1 }]
    | .fixed => [{ dynamic := false, val := val, opt := false, lower := none, upper := none }]
  else []

/-- Constraints on climb and throttle, aviary/mission/flight_phase_builder.py:348-388. -/
def flightCons (o : Opts) : List Con :=
  (if o.noDescent && !o.has "altitude_rate" then
      [{ target := "altitude_rate", loc := none, lower := some 0, ref := some 20 }] else []) ++
  (if o.noClimb && !o.has "altitude_rate" then
      [{ target := "altitude_rate", loc := none, upper := some 0, ref := some 20 }] else []) ++
  (match o.climbRate with
    | some r => if !o.has "altitude_rate_max" then
        [{ target := "altitude_rate_max", loc := none, lower := some r, units := some o.climbRateUnits }] else []
    | none => []) ++
  (if !o.has "throttle" then
    match o.enforcement with
    | .boundary =>
      [{ target := "throttle", loc := some .initial, lower := some 0, upper := some 1, units := some "unitless" },
       { target := "throttle", loc := some .final, lower := some 0, upper := some 1, units := some "unitless" }]
    | .path => [{ target := "throttle", loc := none, lower := some 0, upper := some 1, units := some "unitless" }]
    | _ => []
   else [])

/-- Timeseries of the phase, aviary/mission/flight_phase_builder.py:318-346. -/
def flightTimeseries (energyState : Bool) (o : Opts) : List String :=
  ["altitude_rate", "drag", "electric_power_in_total", "fuel_mass_flow_rate_negative_total", "lift"] ++
  (if o.enforcement = .control then [] else ["throttle"]) ++
  (if energyState then ["specific_energy_rate_excess"] else []) ++
  ["thrust_total", "velocity"] ++
  (if energyState then [] else ["flight_path_angle", "angle_of_attack", "theta", "thrust_req", "normal_force", "time"])

/-- `FlightPhaseBase.build_phase`, aviary/mission/flight_phase_builder.py:170-390, for the equations of motion
energy state or solved two degrees of freedom. -/
def build (energyState : Bool) (numEngineType : ℕ) (subs : List Subsystem) (o : Opts) : Except Err Phase :=
  let p : Phase := {}
  let p := addState p o.mass "mass" (if energyState then "fuel_mass_flow_rate_negative_total" else "dmass_dr")
  let p := if energyState then addState p o.distance "distance" "distance_rate" else p
  match addSubsystems p subs with
  | .error e => .error e
  | .ok p =>
    let p := addControl p o.mach "mach" (some [if energyState then "mach_rate" else "dmach_dr"]) none (!o.has "mach")
    let p := if energyState && !o.groundRoll
      then addControl p o.altitude "altitude" (some ["altitude_rate"]) none (!o.has "altitude")
      else addControl p o.altitude "altitude" (some ["dh_dr"]) (some ["d2h_dr2"]) (!o.has "altitude")
    let p := if o.enforcement = .control then addControl p o.throttle "throttle" none none true else p
    let p := { p with allocs := p.allocs ++ allocCalls energyState numEngineType o.allocation,
                      timeseries := p.timeseries ++ flightTimeseries energyState o,
                      cons := p.cons ++ flightCons o }
    match userCons o.constraints with
    | .error e => .error e
    | .ok cs => .ok { p with cons := p.cons ++ cs }

end Verif.FlightPhase
