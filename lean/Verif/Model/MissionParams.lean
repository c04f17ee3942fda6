import Verif.Model.Builders

/-!
Aircraft-level inputs of the aerodynamics groups and of the equations of motion of the mission, and the values they see.  An input of a
phase takes the user's value only when a builder lists it in `get_parameters`, so that it becomes a parameter of the trajectory.
-/

namespace Verif.MissionParams

open Verif.Builders

/-- Inputs of `WingTailRatios` that are not per node, aviary/subsystems/aerodynamics/gasp_based/gaspaero.py:107-129. -/
def wingTailRatiosIn : List String :=
  ["aircraft:wing:area",
   "aircraft:wing:span",
   "aircraft:wing:average_chord",
   "aircraft:wing:taper_ratio",
   "aircraft:wing:thickness_to_chord_root",
   "aircraft:wing:vertical_mount_location",
   "aircraft:horizontal_tail:vertical_tail_mount_location",
   "aircraft:horizontal_tail:span",
   "aircraft:vertical_tail:span",
   "aircraft:horizontal_tail:area",
   "aircraft:horizontal_tail:average_chord",
   "aircraft:fuselage:avg_diameter"]

/-- Inputs of `Xlifts` that are not per node, aviary/subsystems/aerodynamics/gasp_based/gaspaero.py:289-303. -/
def xliftsIn : List String :=
  ["aircraft:design:static_margin",
   "aircraft:design:cg_delta",
   "aircraft:wing:aspect_ratio",
   "aircraft:wing:sweep",
   "aircraft:horizontal_tail:vertical_tail_mount_location",
   "aircraft:horizontal_tail:sweep",
   "aircraft:horizontal_tail:moment_ratio"]

/-- Inputs of `UFac` that are not per node, aviary/subsystems/aerodynamics/gasp_based/gaspaero.py:562-562. -/
def ufacIn : List String :=
  ["aircraft:wing:span"]

/-- Inputs of `SIWB` that are not per node, aviary/subsystems/aerodynamics/gasp_based/gaspaero.py:420-421. -/
def siwbIn : List String :=
  ["aircraft:fuselage:avg_diameter",
   "aircraft:wing:span"]

/-- Inputs of `BWBSIWB` that are not per node, aviary/subsystems/aerodynamics/gasp_based/gaspaero.py:488-489. -/
def bwbSiwbIn : List String :=
  ["aircraft:fuselage:hydraulic_diameter",
   "aircraft:wing:span"]

/-- Inputs of `AeroGeom` that are not per node, aviary/subsystems/aerodynamics/gasp_based/gaspaero.py:690-752. -/
def aeroGeomIn : List String :=
  ["aircraft:wing:form_factor",
   "aircraft:fuselage:form_factor",
   "aircraft:nacelle:form_factor",
   "aircraft:vertical_tail:form_factor",
   "aircraft:horizontal_tail:form_factor",
   "aircraft:wing:fuselage_interference_factor",
   "aircraft:strut:fuselage_interference_factor",
   "aircraft:design:drag_coefficient_increment",
   "aircraft:fuselage:flat_plate_area_increment",
   "aircraft:wing:min_pressure_location",
   "aircraft:wing:max_thickness_location",
   "aircraft:wing:aspect_ratio",
   "aircraft:wing:sweep",
   "aircraft:wing:taper_ratio",
   "aircraft:strut:area_ratio",
   "aircraft:wing:average_chord",
   "aircraft:horizontal_tail:average_chord",
   "aircraft:vertical_tail:average_chord",
   "aircraft:fuselage:length",
   "aircraft:nacelle:avg_length",
   "aircraft:horizontal_tail:area",
   "aircraft:fuselage:wetted_area",
   "aircraft:nacelle:surface_area",
   "aircraft:wing:area",
   "aircraft:vertical_tail:area",
   "aircraft:wing:thickness_to_chord_unweighted",
   "aircraft:strut:chord",
   "aircraft:fuselage:drag_factor",
   "aircraft:horizontal_tail:drag_factor",
   "aircraft:design:interference_drag_factor",
   "aircraft:nacelle:drag_factor",
   "aircraft:nacelle:pylon_drag_factor",
   "aircraft:strut:drag_factor",
   "aircraft:vertical_tail:drag_factor",
   "aircraft:wing:drag_factor",
   "aircraft:design:excrescence_drag_factor",
   "aircraft:design:percent_excrescence_drag"]

/-- Inputs of `CLFromLift` that are not per node, aviary/subsystems/aerodynamics/gasp_based/common.py:73-73. -/
def clFromLiftIn : List String :=
  ["aircraft:wing:area"]

/-- Inputs of `BWBBodyLiftCurveSlope` that are not per node, aviary/subsystems/aerodynamics/gasp_based/gaspaero.py:223-223. -/
def bodyLiftIn : List String :=
  ["aircraft:fuselage:lift_curve_slope_mach0"]

/-- Inputs of `BWBLiftCoeffClean` that are not per node, aviary/subsystems/aerodynamics/gasp_based/gaspaero.py:2211-2216. -/
def bwbLiftCleanIn : List String :=
  ["aircraft:wing:zero_lift_angle",
   "aircraft:design:lift_coefficient_max_flaps_up",
   "aircraft:wing:area",
   "aircraft:wing:exposed_area",
   "aircraft:fuselage:planform_area"]

/-- Inputs of `LiftCoeffClean` that are not per node, aviary/subsystems/aerodynamics/gasp_based/gaspaero.py:2075-2077. -/
def liftCleanIn : List String :=
  ["aircraft:wing:zero_lift_angle",
   "aircraft:design:lift_coefficient_max_flaps_up"]

/-- Inputs of `DragCoefClean` that are not per node, aviary/subsystems/aerodynamics/gasp_based/gaspaero.py:1360-1365. -/
def dragCleanIn : List String :=
  ["aircraft:design:drag_divergence_shift",
   "aircraft:design:subsonic_drag_coeff_factor",
   "aircraft:design:supersonic_drag_coeff_factor",
   "aircraft:design:lift_dependent_drag_coeff_factor",
   "aircraft:design:zero_lift_drag_coeff_factor",
   "aircraft:design:compressibility_drag_factor"]

/-- Inputs of `AeroForces` that are not per node, aviary/subsystems/aerodynamics/gasp_based/common.py:22-22. -/
def forcesIn : List String :=
  ["aircraft:wing:area"]

/-- Inputs of `GroundEffect` that are not per node, aviary/subsystems/aerodynamics/gasp_based/gaspaero.py:1458-1477. -/
def groundEffectIn : List String :=
  ["aircraft:wing:zero_lift_angle",
   "aircraft:wing:sweep",
   "aircraft:wing:aspect_ratio",
   "aircraft:wing:height",
   "aircraft:wing:flap_chord_ratio",
   "aircraft:wing:taper_ratio",
   "aircraft:wing:average_chord",
   "aircraft:wing:span"]

/-- Inputs of `BWBLiftCoeff` that are not per node, aviary/subsystems/aerodynamics/gasp_based/gaspaero.py:1741-1771. -/
def bwbLiftIn : List String :=
  ["aircraft:wing:zero_lift_angle",
   "aircraft:wing:area",
   "aircraft:wing:exposed_area",
   "aircraft:fuselage:planform_area"]

/-- Inputs of `LiftCoeff` that are not per node, aviary/subsystems/aerodynamics/gasp_based/gaspaero.py:1556-1556. -/
def liftIn : List String :=
  ["aircraft:wing:zero_lift_angle"]

/-- Inputs of `DragCoef` that are not per node, aviary/subsystems/aerodynamics/gasp_based/gaspaero.py:1206-1248. -/
def dragIn : List String :=
  ["aircraft:design:gross_mass",
   "aircraft:wing:height",
   "aircraft:wing:flap_chord_ratio",
   "aircraft:wing:average_chord",
   "aircraft:wing:span",
   "aircraft:wing:area"]

/-- Inputs of `GearDragIncrement` that are not per node, aviary/subsystems/aerodynamics/gasp_based/table_based.py:393-395. -/
def gearDragIn : List String :=
  ["aircraft:design:gross_mass",
   "aircraft:wing:area"]

/-- Inputs of `ScaledCD` that are not per node, aviary/subsystems/aerodynamics/flops_based/drag.py:23-24. -/
def scaledCDIn : List String :=
  ["aircraft:design:subsonic_drag_coeff_factor",
   "aircraft:design:supersonic_drag_coeff_factor"]

/-- Inputs of `SimpleDrag` that are not per node, aviary/subsystems/aerodynamics/flops_based/drag.py:108-108. -/
def simpleDragIn : List String :=
  ["aircraft:wing:area"]

/-- Inputs of `LiftEqualsWeight` that are not per node, aviary/subsystems/aerodynamics/flops_based/lift.py:70-70. -/
def liftEqualsWeightIn : List String :=
  ["aircraft:wing:area"]

/-- Inputs of `LiftDependentDrag` that are not per node, aviary/subsystems/aerodynamics/flops_based/lift_dependent_drag.py:28-36. -/
def liftDependentDragIn : List String :=
  ["aircraft:design:lift_coefficient",
   "aircraft:design:mach",
   "aircraft:wing:area",
   "aircraft:wing:aspect_ratio",
   "aircraft:wing:max_camber_at_70_semispan",
   "aircraft:wing:sweep",
   "aircraft:wing:thickness_to_chord"]

/-- Inputs of `InducedDrag` that are not per node, aviary/subsystems/aerodynamics/flops_based/induced_drag.py:29-33. -/
def inducedDragIn : List String :=
  ["aircraft:wing:area",
   "aircraft:wing:aspect_ratio",
   "aircraft:wing:span_efficiency_factor",
   "aircraft:wing:sweep",
   "aircraft:wing:taper_ratio"]

/-- Inputs of `CompressibilityDrag` that are not per node, aviary/subsystems/aerodynamics/flops_based/compressibility_drag.py:24-36. -/
def compressibilityIn : List String :=
  ["aircraft:design:mach",
   "aircraft:design:base_area",
   "aircraft:wing:area",
   "aircraft:wing:aspect_ratio",
   "aircraft:wing:max_camber_at_70_semispan",
   "aircraft:wing:sweep",
   "aircraft:wing:taper_ratio",
   "aircraft:wing:thickness_to_chord",
   "aircraft:fuselage:cross_section",
   "aircraft:fuselage:diameter_to_wing_span",
   "aircraft:fuselage:length_to_diameter"]

/-- Inputs of `SkinFrictionDrag` that are not per node, aviary/subsystems/aerodynamics/flops_based/skin_friction_drag.py:81-88. -/
def skinFrictionDragIn : List String :=
  ["aircraft:design:percent_excrescence_drag",
   "aircraft:wing:area"]

/-- Inputs of `BuffetLift` that are not per node, aviary/subsystems/aerodynamics/flops_based/buffet_lift.py:26-32. -/
def buffetIn : List String :=
  ["aircraft:design:mach",
   "aircraft:wing:aspect_ratio",
   "aircraft:wing:max_camber_at_70_semispan",
   "aircraft:wing:sweep",
   "aircraft:wing:thickness_to_chord"]

/-- Inputs of `GroundEffect` that are not per node, aviary/subsystems/aerodynamics/flops_based/ground_effect.py:68-70. -/
def flopsGroundEffectIn : List String :=
  ["aircraft:wing:aspect_ratio",
   "aircraft:wing:height",
   "aircraft:wing:span"]

/-- Inputs of `TakeoffEOM` that are not per node, aviary/mission/two_dof/ode/takeoff_eom.py:71-72. -/
def takeoffEomIn : List String :=
  ["aircraft:wing:incidence",
   "mission:takeoff:rolling_friction_coefficient"]

/-- Inputs of `FlightPathEOM` that are not per node, aviary/mission/two_dof/ode/flight_path_eom.py:37-38. -/
def flightPathEomIn : List String :=
  ["aircraft:wing:incidence",
   "mission:takeoff:rolling_friction_coefficient"]

/-- Inputs of `GroundrollEOM` that are not per node, aviary/mission/solved_two_dof/ode/groundroll_eom.py:46-48. -/
def groundrollEomIn : List String :=
  ["aircraft:wing:incidence",
   "mission:takeoff:rolling_friction_coefficient"]

/-- Inputs of `UnsteadySolvedEOM` that are not per node, aviary/mission/solved_two_dof/ode/unsteady_solved_eom.py:52-54. -/
def unsteadyEomIn : List String :=
  ["aircraft:wing:incidence",
   "mission:takeoff:rolling_friction_coefficient"]

/-- Inputs of `SimpleLift` that are not per node, aviary/subsystems/aerodynamics/flops_based/lift.py:18-18. -/
def simpleLiftIn : List String :=
  ["aircraft:wing:area"]

/-- Numbers of parts read by `MuxComponent`, aviary/subsystems/aerodynamics/flops_based/mux_component.py:25-30. -/
structure Counts where
  numH : ℤ
  numV : ℤ
  numF : ℤ
  engines : List ℤ
  deriving DecidableEq, Repr

/-- `characteristic_length`, `fineness`, `laminar_flow_lower`, `laminar_flow_upper`, `wetted_area` of a part,
aviary/subsystems/aerodynamics/flops_based/mux_component.py:36-40. -/
def fiveOf (part : String) : List String :=
  ["wetted_area", "fineness", "characteristic_length", "laminar_flow_upper", "laminar_flow_lower"].map
    (fun x => "aircraft:" ++ part ++ ":" ++ x)

/-- Inputs of `MuxComponent`, aviary/subsystems/aerodynamics/flops_based/mux_component.py:32-105. -/
def muxIn (n : Counts) : List String :=
  fiveOf "wing" ++ (if n.numH > 0 then fiveOf "horizontal_tail" else []) ++ (if n.numV > 0 then fiveOf "vertical_tail" else []) ++
    (if n.numF > 0 then fiveOf "fuselage" else []) ++ (if n.engines.sum > 0 then fiveOf "nacelle" else [])

/-- `TotalDrag`: the factors of the `ExecComp`, `ScaledCD` and `SimpleDrag`.
aviary/subsystems/aerodynamics/flops_based/drag.py:187-201. -/
def totalDragIn : List String :=
  ["aircraft:design:lift_dependent_drag_coeff_factor", "aircraft:design:zero_lift_drag_coeff_factor"] ++ scaledCDIn ++ simpleDragIn

/-- `AeroSetup` and `BWBAeroSetup`, aviary/subsystems/aerodynamics/gasp_based/gaspaero.py:1074-1123,
aviary/subsystems/aerodynamics/gasp_based/gaspaero.py:1140-1183. -/
def aeroSetupIn (bwb : Bool) : List String :=
  if bwb then wingTailRatiosIn ++ xliftsIn ++ ufacIn ++ bwbSiwbIn ++ aeroGeomIn
  else wingTailRatiosIn ++ xliftsIn ++ siwbIn ++ aeroGeomIn

/-- `CruiseAero`, aviary/subsystems/aerodynamics/gasp_based/gaspaero.py:2455-2497. -/
def cruiseIn (bwb outputAlpha : Bool) : List String :=
  aeroSetupIn bwb ++ (if outputAlpha then clFromLiftIn else []) ++ (if bwb then bodyLiftIn ++ bwbLiftCleanIn else liftCleanIn) ++
    dragCleanIn ++ forcesIn

/-- `LowSpeedAero`; the inputs `airport_alt`, `flap_defl`, `CL_max_flaps`, `dCL_flaps_model`, `dCD_flaps_model` by the names they are
promoted under (aviary/subsystems/aerodynamics/aerodynamics_builder.py:285-299).  The lift group and the ground effect are absent
when the lift is required.  aviary/subsystems/aerodynamics/gasp_based/gaspaero.py:2533-2665. -/
def lowSpeedIn (bwb liftRequired : Bool) : List String :=
  aeroSetupIn bwb ++
    (if liftRequired then clFromLiftIn
      else groundEffectIn ++ ["mission:takeoff:lift_coefficient_max"] ++
        (if bwb then bodyLiftIn ++ bwbLiftIn else liftIn)) ++
    ["aircraft:wing:flap_deflection_takeoff", "mission:takeoff:airport_altitude",
      "mission:takeoff:lift_coefficient_flap_increment", "mission:takeoff:drag_coefficient_flap_increment"] ++ dragIn ++ forcesIn

/-- `TabularCruiseAero` with its tables as values, aviary/subsystems/aerodynamics/gasp_based/table_based.py:98-101. -/
def tabCruiseIn : List String := scaledCDIn ++ forcesIn

/-- `TabularLowSpeedAero`, aviary/subsystems/aerodynamics/gasp_based/table_based.py:201-359. -/
def tabLowSpeedIn : List String :=
  ["mission:takeoff:airport_altitude", "aircraft:wing:span", "aircraft:wing:height", "aircraft:wing:flap_deflection_takeoff"] ++
    gearDragIn ++ forcesIn

/-- `ComputedAeroGroup`, aviary/subsystems/aerodynamics/flops_based/computed_aero_group.py:28-183. -/
def computedIn (n : Counts) : List String :=
  muxIn n ++ liftEqualsWeightIn ++ liftDependentDragIn ++ inducedDragIn ++ compressibilityIn ++ skinFrictionDragIn ++ totalDragIn ++
    buffetIn

/-- `TabularAeroGroup` with its tables as values, aviary/subsystems/aerodynamics/flops_based/tabular_aero_group.py:134-196. -/
def tabularIn : List String := ["aircraft:wing:area"] ++ totalDragIn

/-- `TakeoffAeroGroup`, aviary/subsystems/aerodynamics/flops_based/takeoff_aero_group.py:114-189. -/
def takeoffIn : List String := flopsGroundEffectIn ++ ["mission:takeoff:drag_coefficient_min"] ++ simpleLiftIn ++ simpleDragIn

/-- The group built for each class.  `flag` is `output_alpha` or `lift_required`.
aviary/subsystems/aerodynamics/aerodynamics_builder.py:96-219. -/
def groupIn (c : Cls) (bwb flag : Bool) (n : Counts) : List String :=
  match c with
  | .computed => computedIn n
  | .takeoff => takeoffIn
  | .tabular => tabularIn
  | .cruise => cruiseIn bwb flag
  | .tabCruise => tabCruiseIn
  | .lowSpeed => lowSpeedIn bwb flag
  | .tabLowSpeed => tabLowSpeedIn

/-- Phases of the 2DOF missions, aviary/mission/two_dof/phases/takeoff_phase.py:310-341,
aviary/mission/two_dof/phases/flight_phase.py:212-219, aviary/mission/solved_two_dof/phases/groundroll_phase.py:207-214,
aviary/mission/solved_two_dof/phases/solved_twodof_phase.py:309-316. -/
inductive Phase | takeoff (groundRoll rotation : Bool) | flight | solvedGroundroll | solved
  deriving DecidableEq, Repr

/-- `get_parameters` of the phase builder, aviary/mission/two_dof/phases/takeoff_phase.py:310-341,
aviary/mission/two_dof/phases/flight_phase.py:212-219, aviary/mission/solved_two_dof/phases/groundroll_phase.py:207-214,
aviary/mission/solved_two_dof/phases/solved_twodof_phase.py:309-316. -/
def Phase.params : Phase → List String
  | .takeoff true _ => ["aircraft:wing:incidence", "aircraft:wing:area", "mission:takeoff:decision_speed_increment",
      "mission:takeoff:rotation_speed_increment", "mission:takeoff:lift_coefficient_max"]
  | _ => ["aircraft:wing:incidence"]

/-- Inputs of the equations of motion that the ODE promotes: the friction coefficient only on the ground.
aviary/mission/two_dof/ode/takeoff_ode.py:66-80, aviary/mission/two_dof/ode/takeoff_ode.py:262-270,
aviary/mission/solved_two_dof/ode/groundroll_ode.py:85, aviary/mission/solved_two_dof/ode/unsteady_solved_ode.py:212-221. -/
def Phase.eomIn : Phase → List String
  | .takeoff true _ => takeoffEomIn ++ ["aircraft:wing:area", "mission:takeoff:decision_speed_increment",
      "mission:takeoff:rotation_speed_increment", "mission:takeoff:lift_coefficient_max"]
  | .takeoff false true => takeoffEomIn
  | .takeoff false false => ["aircraft:wing:incidence"]
  | .flight => ["aircraft:wing:incidence"]
  | .solvedGroundroll => groundrollEomIn
  | .solved => unsteadyEomIn

/-- Value of an input inside the phase: the trajectory parameter of that name when the phase builder or a subsystem lists it (the user's
value, or the default of the metadata), else the default given to the input by the group or by the metadata.
aviary/core/aviary_group.py:734-787, aviary/variable_info/functions.py:398-475. -/
def seen (params : List String) (user : String → Option ℚ) (groupDefault : String → Option ℚ) (metaDefault : String → ℚ) (v : String) :
    ℚ :=
  if v ∈ params then (user v).getD (metaDefault v) else (groupDefault v).getD (metaDefault v)

/-- Defaults set by the takeoff ODE, aviary/mission/two_dof/ode/takeoff_ode.py:318-322. -/
def takeoffDefaults (groundRoll rotation : Bool) (v : String) : Option ℚ :=
  if v = "mission:takeoff:rolling_friction_coefficient" ∧ (groundRoll || rotation) = true then some (2 / 100)
  else if v = "aircraft:wing:incidence" ∧ groundRoll = true then some 1
  else none

end Verif.MissionParams
