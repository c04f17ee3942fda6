import Verif.Data.MetaTable

/-!
# Calls of `add_aviary_input`, `add_aviary_output` and `add_aviary_option`

Generated from all calls in the package outside the tests with a variable of the core hierarchy: variable, helper, units given as a
constant, and whether a shape is given.  Calls that agree in these are listed once, in the order of the metadata; the comment of a row
is the first such call, without the leading `aviary/`.
-/

namespace Verif.MetaTable

/-- The three helpers, aviary/variable_info/functions.py:22-277. -/
inductive Helper | input | output | option
  deriving DecidableEq, Repr

/-- One call, aviary/variable_info/functions.py:22-277. -/
structure Call where
  name : Text
  helper : Helper
  units : Option Text
  shape : Bool
  deriving DecidableEq, Repr

/-- First row: aviary/subsystems/mass/gasp_based/mass_summation.py:135. -/
def calls0 : List Call := [
  ⟨t!"aircraft:air_conditioning:mass", .input, some t!"lbm", false⟩,  -- subsystems/mass/gasp_based/mass_summation.py:135
  ⟨t!"aircraft:air_conditioning:mass", .output, some t!"lbm", false⟩,  -- subsystems/mass/gasp_based/air_conditioning.py:136
  ⟨t!"aircraft:air_conditioning:mass_coefficient", .input, some t!"unitless", false⟩,  -- subsystems/mass/gasp_based/air_conditioning.py:130
  ⟨t!"aircraft:air_conditioning:mass_scaler", .input, some t!"unitless", false⟩,  -- subsystems/mass/flops_based/air_conditioning.py:20
  ⟨t!"aircraft:anti_icing:mass", .input, some t!"lbm", false⟩,  -- subsystems/mass/gasp_based/mass_summation.py:136
  ⟨t!"aircraft:anti_icing:mass", .output, some t!"lbm", false⟩,  -- subsystems/mass/gasp_based/anti_icing.py:24
  ⟨t!"aircraft:anti_icing:mass_scaler", .input, some t!"unitless", false⟩,  -- subsystems/mass/flops_based/anti_icing.py:27
  ⟨t!"aircraft:apu:mass", .input, some t!"lbm", false⟩,  -- subsystems/mass/gasp_based/mass_summation.py:137
  ⟨t!"aircraft:apu:mass", .output, some t!"lbm", false⟩,  -- subsystems/mass/gasp_based/apu.py:18
  ⟨t!"aircraft:apu:mass_scaler", .input, some t!"unitless", false⟩,  -- subsystems/mass/flops_based/apu.py:18
  ⟨t!"aircraft:avionics:mass", .input, some t!"lbm", false⟩,  -- subsystems/mass/gasp_based/mass_summation.py:138
  ⟨t!"aircraft:avionics:mass", .output, some t!"lbm", false⟩,  -- subsystems/mass/gasp_based/avionics.py:23
  ⟨t!"aircraft:avionics:mass_scaler", .input, some t!"unitless", false⟩,  -- subsystems/mass/flops_based/avionics.py:19
  ⟨t!"aircraft:battery:additional_mass", .input, some t!"kg", false⟩,  -- subsystems/energy/battery_sizing.py:18
  ⟨t!"aircraft:battery:energy_capacity", .output, some t!"kJ", false⟩,  -- subsystems/energy/battery_sizing.py:32
  ⟨t!"aircraft:battery:mass", .input, some t!"lbm", false⟩,  -- subsystems/mass/gasp_based/mass_summation.py:115
  ⟨t!"aircraft:battery:mass", .output, some t!"kg", false⟩,  -- subsystems/energy/battery_sizing.py:31
  ⟨t!"aircraft:battery:pack_energy_density", .input, some t!"kJ/kg", false⟩,  -- subsystems/energy/battery_sizing.py:24
  ⟨t!"aircraft:battery:pack_mass", .input, some t!"kg", false⟩,  -- subsystems/energy/battery_sizing.py:12
  ⟨t!"aircraft:blended_wing_body_design:detailed_wing_provided", .option, none, false⟩,  -- subsystems/mass/flops_based/wing_detailed.py:313
  ⟨t!"aircraft:blended_wing_body_design:max_bay_width", .option, none, false⟩,  -- subsystems/geometry/flops_based/fuselage.py:467
  ⟨t!"aircraft:blended_wing_body_design:max_num_bays", .option, none, false⟩,  -- subsystems/geometry/flops_based/fuselage.py:466
  ⟨t!"aircraft:blended_wing_body_design:num_bays", .input, some t!"unitless", false⟩,  -- subsystems/mass/flops_based/furnishings.py:105
  ⟨t!"aircraft:blended_wing_body_design:num_bays", .output, some t!"unitless", false⟩,  -- subsystems/geometry/flops_based/fuselage.py:481
  ⟨t!"aircraft:blended_wing_body_design:passenger_leading_edge_sweep", .input, some t!"deg", false⟩,  -- subsystems/mass/flops_based/furnishings.py:104
  ⟨t!"aircraft:blended_wing_body_design:rear_spar_percent_chord_centerline", .input, none, false⟩,  -- subsystems/mass/flops_based/fuselage.py:212
  ⟨t!"aircraft:blended_wing_body_design:rear_spar_percent_chord_root", .input, none, false⟩,  -- subsystems/mass/flops_based/fuselage.py:213
  ⟨t!"aircraft:blended_wing_body_design:wing_root_index", .option, none, false⟩,  -- subsystems/mass/flops_based/wing_detailed.py:306
  ⟨t!"aircraft:canard:area", .input, some t!"ft**2", false⟩,  -- subsystems/mass/flops_based/canard.py:16
  ⟨t!"aircraft:canard:aspect_ratio", .input, some t!"unitless", false⟩,  -- subsystems/geometry/flops_based/characteristic_lengths.py:577
  ⟨t!"aircraft:canard:characteristic_length", .input, some t!"ft", false⟩,  -- subsystems/aerodynamics/flops_based/drag_polar.py:39
  ⟨t!"aircraft:canard:characteristic_length", .output, some t!"ft", false⟩,  -- subsystems/geometry/flops_based/characteristic_lengths.py:582
  ⟨t!"aircraft:canard:fineness", .input, some t!"unitless", false⟩,  -- subsystems/aerodynamics/flops_based/drag_polar.py:32
  ⟨t!"aircraft:canard:fineness", .output, some t!"unitless", false⟩,  -- subsystems/geometry/flops_based/characteristic_lengths.py:583
  ⟨t!"aircraft:canard:mass", .input, some t!"lbm", false⟩,  -- subsystems/mass/flops_based/mass_summation.py:86
  ⟨t!"aircraft:canard:mass", .output, some t!"lbm", false⟩,  -- subsystems/mass/flops_based/canard.py:20
  ⟨t!"aircraft:canard:mass_scaler", .input, some t!"unitless", false⟩,  -- subsystems/mass/flops_based/canard.py:18
  ⟨t!"aircraft:canard:taper_ratio", .input, some t!"unitless", false⟩,  -- subsystems/mass/flops_based/canard.py:17
  ⟨t!"aircraft:canard:thickness_to_chord", .input, some t!"unitless", false⟩,  -- subsystems/geometry/flops_based/characteristic_lengths.py:580
  ⟨t!"aircraft:canard:wetted_area", .input, some t!"ft**2", false⟩,  -- subsystems/aerodynamics/flops_based/drag_polar.py:25
  ⟨t!"aircraft:canard:wetted_area", .output, some t!"ft**2", false⟩,  -- subsystems/geometry/flops_based/canard.py:20
  ⟨t!"aircraft:canard:wetted_area_scaler", .input, some t!"unitless", false⟩,  -- subsystems/geometry/flops_based/canard.py:18
  ⟨t!"aircraft:controls:cockpit_control_mass", .input, some t!"lbm", false⟩,  -- subsystems/mass/gasp_based/control.py:127
  ⟨t!"aircraft:controls:cockpit_control_mass", .output, some t!"lbm", false⟩,  -- subsystems/mass/gasp_based/control.py:32
  ⟨t!"aircraft:controls:cockpit_control_mass_scaler", .input, some t!"unitless", false⟩,  -- subsystems/mass/gasp_based/control.py:23
  ⟨t!"aircraft:controls:control_mass_increment", .input, some t!"lbm", false⟩,  -- subsystems/mass/gasp_based/control.py:30
  ⟨t!"aircraft:controls:mass", .input, some t!"lbm", false⟩,  -- subsystems/mass/gasp_based/mass_summation.py:143
  ⟨t!"aircraft:controls:mass", .output, none, false⟩,  -- subsystems/mass/flops_based/mass_summation.py:182
  ⟨t!"aircraft:controls:mass", .output, some t!"lbm", false⟩,  -- subsystems/mass/gasp_based/control.py:285
  ⟨t!"aircraft:controls:stability_augmentation_system_mass", .input, some t!"lbm", false⟩,  -- subsystems/mass/gasp_based/control.py:282
  ⟨t!"aircraft:controls:stability_augmentation_system_mass", .output, some t!"lbm", false⟩,  -- subsystems/mass/gasp_based/control.py:33
  ⟨t!"aircraft:controls:stability_augmentation_system_mass_scaler", .input, some t!"unitless", false⟩,  -- subsystems/mass/gasp_based/control.py:25
  ⟨t!"aircraft:controls:stability_augmentation_system_reference_mass", .input, some t!"lbm", false⟩,  -- subsystems/mass/gasp_based/control.py:20
  ⟨t!"aircraft:crew_and_payload:baggage_mass", .input, some t!"lbm", false⟩,  -- subsystems/mass/flops_based/cargo_containers.py:20
  ⟨t!"aircraft:crew_and_payload:baggage_mass", .output, some t!"lbm", false⟩,  -- subsystems/mass/flops_based/payload.py:77
  ⟨t!"aircraft:crew_and_payload:baggage_mass_per_passenger", .input, some t!"lbm", false⟩,  -- subsystems/mass/flops_based/payload.py:73
  ⟨t!"aircraft:crew_and_payload:cabin_crew_mass", .input, some t!"lbm", false⟩,  -- subsystems/mass/gasp_based/mass_summation.py:203
  ⟨t!"aircraft:crew_and_payload:cabin_crew_mass", .output, some t!"lbm", false⟩,  -- subsystems/mass/gasp_based/crew.py:24
  ⟨t!"aircraft:crew_and_payload:cabin_crew_mass_scaler", .input, some t!"unitless", false⟩,  -- subsystems/mass/flops_based/crew.py:20
  ⟨t!"aircraft:crew_and_payload:cargo_container_mass", .input, some t!"lbm", false⟩,  -- subsystems/mass/gasp_based/mass_summation.py:202
  ⟨t!"aircraft:crew_and_payload:cargo_container_mass", .output, some t!"lbm", false⟩,  -- subsystems/mass/gasp_based/cargo_containers.py:23
  ⟨t!"aircraft:crew_and_payload:cargo_container_mass_scaler", .input, some t!"unitless", false⟩,  -- subsystems/mass/flops_based/cargo_containers.py:18
  ⟨t!"aircraft:crew_and_payload:cargo_mass", .input, some t!"lbm", false⟩,  -- subsystems/mass/gasp_based/fixed.py:260
  ⟨t!"aircraft:crew_and_payload:cargo_mass", .output, some t!"lbm", false⟩,  -- subsystems/mass/flops_based/payload.py:54
  ⟨t!"aircraft:crew_and_payload:catering_items_mass_per_passenger", .input, some t!"lbm", false⟩,  -- subsystems/mass/gasp_based/passenger_service.py:27
  ⟨t!"aircraft:crew_and_payload:flight_crew_mass", .input, some t!"lbm", false⟩,  -- subsystems/mass/gasp_based/mass_summation.py:204
  ⟨t!"aircraft:crew_and_payload:flight_crew_mass", .output, some t!"lbm", false⟩,  -- subsystems/mass/gasp_based/crew.py:109
  ⟨t!"aircraft:crew_and_payload:flight_crew_mass_scaler", .input, some t!"unitless", false⟩,  -- subsystems/mass/flops_based/crew.py:70
  ⟨t!"aircraft:crew_and_payload:mass_per_passenger", .input, some t!"lbm", false⟩,  -- subsystems/mass/flops_based/payload.py:74
  ⟨t!"aircraft:crew_and_payload:mass_per_passenger_with_bags", .input, some t!"lbm", false⟩,  -- subsystems/mass/gasp_based/fixed.py:259
  ⟨t!"aircraft:crew_and_payload:misc_cargo", .input, some t!"lbm", false⟩,  -- subsystems/mass/flops_based/payload.py:52
  ⟨t!"aircraft:crew_and_payload:num_flight_attendants", .option, none, false⟩,  -- subsystems/mass/flops_based/crew.py:16
  ⟨t!"aircraft:crew_and_payload:num_flight_crew", .option, none, false⟩,  -- subsystems/mass/flops_based/avionics.py:16
  ⟨t!"aircraft:crew_and_payload:num_galley_crew", .option, none, false⟩,  -- subsystems/mass/flops_based/crew.py:17
  ⟨t!"aircraft:crew_and_payload:num_passengers", .option, none, false⟩,  -- subsystems/mass/gasp_based/fixed.py:255
  ⟨t!"aircraft:crew_and_payload:passenger_mass_total", .output, some t!"lbm", false⟩,  -- subsystems/mass/flops_based/payload.py:76
  ⟨t!"aircraft:crew_and_payload:passenger_payload_mass", .input, some t!"lbm", false⟩,  -- subsystems/mass/flops_based/payload.py:29
  ⟨t!"aircraft:crew_and_payload:passenger_payload_mass", .output, some t!"lbm", false⟩,  -- subsystems/mass/gasp_based/fixed.py:264
  ⟨t!"aircraft:crew_and_payload:passenger_service_mass", .input, some t!"lbm", false⟩,  -- subsystems/mass/gasp_based/mass_summation.py:205
  ⟨t!"aircraft:crew_and_payload:passenger_service_mass", .output, some t!"lbm", false⟩,  -- subsystems/mass/gasp_based/passenger_service.py:29
  ⟨t!"aircraft:crew_and_payload:passenger_service_mass_per_passenger", .input, some t!"lbm", false⟩,  -- subsystems/mass/gasp_based/passenger_service.py:23
  ⟨t!"aircraft:crew_and_payload:passenger_service_mass_scaler", .input, some t!"unitless", false⟩,  -- subsystems/mass/flops_based/passenger_service.py:27
  ⟨t!"aircraft:crew_and_payload:total_payload_mass", .input, some t!"lbm", false⟩,  -- subsystems/mass/gasp_based/mass_summation.py:257
  ⟨t!"aircraft:crew_and_payload:total_payload_mass", .output, some t!"lbm", false⟩,  -- subsystems/mass/gasp_based/fixed.py:265
  ⟨t!"aircraft:crew_and_payload:uld_mass_per_passenger", .option, none, false⟩,  -- subsystems/mass/gasp_based/cargo_containers.py:20
  ⟨t!"aircraft:crew_and_payload:water_mass_per_occupant", .input, none, false⟩,  -- subsystems/mass/gasp_based/crew.py:22
  ⟨t!"aircraft:crew_and_payload:water_mass_per_occupant", .input, some t!"lbm", false⟩,  -- subsystems/mass/gasp_based/passenger_service.py:26
  ⟨t!"aircraft:crew_and_payload:wing_cargo", .input, some t!"lbm", false⟩,  -- subsystems/mass/flops_based/payload.py:51
  ⟨t!"aircraft:crew_and_payload:design:cargo_mass", .input, some t!"lbm", false⟩,  -- subsystems/mass/gasp_based/fixed.py:261
  ⟨t!"aircraft:crew_and_payload:design:max_cargo_mass", .input, some t!"lbm", false⟩,  -- subsystems/mass/gasp_based/fixed.py:262
  ⟨t!"aircraft:crew_and_payload:design:num_business_class", .option, none, false⟩,  -- subsystems/mass/flops_based/furnishings.py:16
  ⟨t!"aircraft:crew_and_payload:design:num_economy_class", .option, none, false⟩,  -- subsystems/mass/flops_based/furnishings.py:19
  ⟨t!"aircraft:crew_and_payload:design:num_first_class", .option, none, false⟩,  -- subsystems/mass/flops_based/furnishings.py:18
  ⟨t!"aircraft:crew_and_payload:design:num_passengers", .option, none, false⟩,  -- subsystems/mass/gasp_based/avionics.py:17
  ⟨t!"aircraft:crew_and_payload:design:num_seats_abreast_business", .option, none, false⟩,  -- subsystems/geometry/flops_based/fuselage.py:176
  ⟨t!"aircraft:crew_and_payload:design:num_seats_abreast_economy", .option, none, false⟩,  -- subsystems/geometry/gasp_based/fuselage.py:16
  ⟨t!"aircraft:crew_and_payload:design:num_seats_abreast_first", .option, none, false⟩,  -- subsystems/geometry/flops_based/fuselage.py:177
  ⟨t!"aircraft:crew_and_payload:design:seat_pitch_business", .option, none, false⟩,  -- subsystems/geometry/flops_based/fuselage.py:179
  ⟨t!"aircraft:crew_and_payload:design:seat_pitch_business", .option, some t!"inch", false⟩,  -- subsystems/geometry/gasp_based/fuselage.py:455
  ⟨t!"aircraft:crew_and_payload:design:seat_pitch_economy", .option, none, false⟩]  -- subsystems/geometry/flops_based/fuselage.py:181

/-- First row: aviary/subsystems/geometry/gasp_based/fuselage.py:17. -/
def calls1 : List Call := [
  ⟨t!"aircraft:crew_and_payload:design:seat_pitch_economy", .option, some t!"inch", false⟩,  -- subsystems/geometry/gasp_based/fuselage.py:17
  ⟨t!"aircraft:crew_and_payload:design:seat_pitch_first", .option, none, false⟩,  -- subsystems/geometry/flops_based/fuselage.py:180
  ⟨t!"aircraft:crew_and_payload:design:seat_pitch_first", .option, some t!"inch", false⟩,  -- subsystems/geometry/gasp_based/fuselage.py:452
  ⟨t!"aircraft:design:base_area", .input, some t!"ft**2", false⟩,  -- subsystems/aerodynamics/flops_based/compressibility_drag.py:27
  ⟨t!"aircraft:design:cg_delta", .input, some t!"unitless", false⟩,  -- subsystems/aerodynamics/gasp_based/gaspaero.py:291
  ⟨t!"aircraft:design:cockpit_control_mass_coefficient", .input, some t!"unitless", false⟩,  -- subsystems/mass/gasp_based/control.py:19
  ⟨t!"aircraft:design:compressibility_drag_factor", .input, some t!"unitless", false⟩,  -- subsystems/aerodynamics/gasp_based/gaspaero.py:1365
  ⟨t!"aircraft:design:compute_htail_volume_coeff", .option, none, false⟩,  -- subsystems/geometry/gasp_based/empennage.py:243
  ⟨t!"aircraft:design:compute_vtail_volume_coeff", .option, none, false⟩,  -- subsystems/geometry/gasp_based/empennage.py:244
  ⟨t!"aircraft:design:cruise_altitude", .option, some t!"ft", false⟩,  -- subsystems/mass/gasp_based/design_load.py:342
  ⟨t!"aircraft:design:cruise_mach", .input, some t!"unitless", false⟩,  -- subsystems/mass/flops_based/landing_mass.py:12
  ⟨t!"aircraft:design:drag_coefficient_increment", .input, some t!"unitless", false⟩,  -- subsystems/aerodynamics/gasp_based/gaspaero.py:707
  ⟨t!"aircraft:design:drag_divergence_shift", .input, some t!"unitless", false⟩,  -- subsystems/aerodynamics/gasp_based/gaspaero.py:1360
  ⟨t!"aircraft:design:emergency_equipment_mass", .input, none, false⟩,  -- subsystems/mass/gasp_based/mass_summation.py:208
  ⟨t!"aircraft:design:emergency_equipment_mass", .output, some t!"lbm", false⟩,  -- subsystems/mass/gasp_based/emergency_equipment.py:23
  ⟨t!"aircraft:design:empennage_mass", .input, some t!"lbm", false⟩,  -- subsystems/mass/gasp_based/mass_summation.py:77
  ⟨t!"aircraft:design:empennage_mass", .output, some t!"lbm", false⟩,  -- subsystems/mass/gasp_based/mass_summation.py:63
  ⟨t!"aircraft:design:empty_mass", .input, some t!"lbm", false⟩,  -- subsystems/mass/gasp_based/mass_summation.py:240
  ⟨t!"aircraft:design:empty_mass", .output, some t!"lbm", false⟩,  -- subsystems/mass/gasp_based/mass_summation.py:184
  ⟨t!"aircraft:design:empty_mass_margin", .input, some t!"lbm", false⟩,  -- subsystems/mass/flops_based/mass_summation.py:329
  ⟨t!"aircraft:design:empty_mass_margin", .output, some t!"lbm", false⟩,  -- subsystems/mass/flops_based/empty_margin.py:16
  ⟨t!"aircraft:design:empty_mass_margin_scaler", .input, some t!"unitless", false⟩,  -- subsystems/mass/flops_based/empty_margin.py:14
  ⟨t!"aircraft:design:excrescence_drag_factor", .input, none, false⟩,  -- subsystems/aerodynamics/gasp_based/gaspaero.py:751
  ⟨t!"aircraft:design:external_subsystems_mass", .input, some t!"lbm", false⟩,  -- subsystems/mass/gasp_based/mass_summation.py:182
  ⟨t!"aircraft:design:gross_mass", .input, none, false⟩,  -- subsystems/mass/gasp_based/landing.py:15
  ⟨t!"aircraft:design:gross_mass", .input, some t!"lbm", false⟩,  -- subsystems/aerodynamics/gasp_based/gaspaero.py:1206
  ⟨t!"aircraft:design:interference_drag_factor", .input, none, false⟩,  -- subsystems/aerodynamics/gasp_based/gaspaero.py:745
  ⟨t!"aircraft:design:landing_to_takeoff_mass_ratio", .input, none, false⟩,  -- subsystems/mass/gasp_based/landing.py:16
  ⟨t!"aircraft:design:landing_to_takeoff_mass_ratio", .output, some t!"unitless", false⟩,  -- subsystems/mass/flops_based/landing_mass.py:15
  ⟨t!"aircraft:design:lift_coefficient", .input, some t!"unitless", false⟩,  -- subsystems/aerodynamics/flops_based/lift_dependent_drag.py:28
  ⟨t!"aircraft:design:lift_coefficient", .output, some t!"unitless", false⟩,  -- subsystems/aerodynamics/flops_based/premission_aero.py:41
  ⟨t!"aircraft:design:lift_coefficient_max_flaps_up", .input, some t!"unitless", false⟩,  -- subsystems/aerodynamics/gasp_based/gaspaero.py:2077
  ⟨t!"aircraft:design:lift_curve_slope", .input, some t!"1/rad", false⟩,  -- subsystems/mass/gasp_based/design_load.py:681
  ⟨t!"aircraft:design:lift_curve_slope", .output, some t!"1/rad", false⟩,  -- subsystems/mass/gasp_based/design_load.py:599
  ⟨t!"aircraft:design:lift_dependent_drag_coeff_factor", .input, some t!"unitless", false⟩,  -- subsystems/aerodynamics/gasp_based/gaspaero.py:1363
  ⟨t!"aircraft:design:mach", .input, some t!"unitless", false⟩,  -- subsystems/aerodynamics/gasp_based/gasp_aero_coeffs.py:32
  ⟨t!"aircraft:design:mach", .output, some t!"unitless", false⟩,  -- subsystems/aerodynamics/flops_based/premission_aero.py:40
  ⟨t!"aircraft:design:max_structural_speed", .input, some t!"mi/h", false⟩,  -- subsystems/mass/gasp_based/design_load.py:28
  ⟨t!"aircraft:design:part25_structural_category", .option, none, false⟩,  -- subsystems/mass/gasp_based/design_load.py:23
  ⟨t!"aircraft:design:percent_excrescence_drag", .input, none, false⟩,  -- subsystems/aerodynamics/gasp_based/gaspaero.py:752
  ⟨t!"aircraft:design:range", .input, some t!"NM", false⟩,  -- subsystems/mass/flops_based/avionics.py:21
  ⟨t!"aircraft:design:smooth_mass_discontinuities", .option, none, false⟩,  -- subsystems/mass/gasp_based/avionics.py:18
  ⟨t!"aircraft:design:static_margin", .input, some t!"unitless", false⟩,  -- subsystems/aerodynamics/gasp_based/gaspaero.py:289
  ⟨t!"aircraft:design:structural_mass_increment", .input, some t!"lbm", false⟩,  -- subsystems/mass/gasp_based/mass_summation.py:82
  ⟨t!"aircraft:design:structure_mass", .input, some t!"lbm", false⟩,  -- subsystems/mass/gasp_based/mass_summation.py:179
  ⟨t!"aircraft:design:structure_mass", .output, some t!"lbm", false⟩,  -- subsystems/mass/gasp_based/mass_summation.py:84
  ⟨t!"aircraft:design:subsonic_drag_coeff_factor", .input, some t!"unitless", false⟩,  -- subsystems/aerodynamics/gasp_based/gaspaero.py:1361
  ⟨t!"aircraft:design:supersonic_drag_coeff_factor", .input, some t!"unitless", false⟩,  -- subsystems/aerodynamics/gasp_based/gaspaero.py:1362
  ⟨t!"aircraft:design:systems_and_equipment_mass", .input, some t!"lbm", false⟩,  -- subsystems/mass/gasp_based/mass_summation.py:181
  ⟨t!"aircraft:design:systems_and_equipment_mass", .output, some t!"lbm", false⟩,  -- subsystems/mass/gasp_based/mass_summation.py:146
  ⟨t!"aircraft:design:systems_and_equipment_mass_base", .input, some t!"lbm", false⟩,  -- subsystems/mass/flops_based/mass_summation.py:275
  ⟨t!"aircraft:design:systems_and_equipment_mass_base", .output, some t!"lbm", false⟩,  -- subsystems/mass/flops_based/mass_summation.py:244
  ⟨t!"aircraft:design:thrust_to_weight_ratio", .output, some t!"unitless", false⟩,  -- subsystems/performance/performance_premission.py:16
  ⟨t!"aircraft:design:total_wetted_area", .input, some t!"ft**2", false⟩,  -- subsystems/mass/flops_based/paint.py:11
  ⟨t!"aircraft:design:total_wetted_area", .output, some t!"ft**2", false⟩,  -- subsystems/geometry/flops_based/wetted_area_total.py:988
  ⟨t!"aircraft:design:touchdown_mass_max", .input, some t!"lbm", false⟩,  -- subsystems/mass/gasp_based/landing.py:53
  ⟨t!"aircraft:design:touchdown_mass_max", .output, none, false⟩,  -- subsystems/mass/gasp_based/landing.py:18
  ⟨t!"aircraft:design:type", .option, none, false⟩,  -- subsystems/aerodynamics/gasp_based/gaspaero.py:551
  ⟨t!"aircraft:design:ulf_calculated_from_maneuver", .option, none, false⟩,  -- subsystems/mass/gasp_based/design_load.py:657
  ⟨t!"aircraft:design:use_alt_mass", .option, none, false⟩,  -- subsystems/mass/flops_based/landing_gear.py:17
  ⟨t!"aircraft:design:useful_load_mass", .output, some t!"lbm", false⟩,  -- subsystems/mass/gasp_based/mass_summation.py:277
  ⟨t!"aircraft:design:wing_loading", .input, some t!"lbf/ft**2", false⟩,  -- subsystems/aerodynamics/gasp_based/flaps_model/Cl_max.py:81
  ⟨t!"aircraft:design:wing_loading", .output, some t!"lbf/ft**2", false⟩,  -- subsystems/performance/performance_premission.py:17
  ⟨t!"aircraft:design:zero_lift_drag_coeff_factor", .input, some t!"unitless", false⟩,  -- subsystems/aerodynamics/gasp_based/gaspaero.py:1364
  ⟨t!"aircraft:electrical:has_hybrid_system", .option, none, false⟩,  -- subsystems/mass/gasp_based/fixed.py:2153
  ⟨t!"aircraft:electrical:hybrid_cable_length", .input, some t!"ft", false⟩,  -- subsystems/mass/gasp_based/fixed.py:352
  ⟨t!"aircraft:electrical:hybrid_cable_length", .output, some t!"ft", false⟩,  -- subsystems/geometry/gasp_based/electric.py:26
  ⟨t!"aircraft:electrical:mass", .input, some t!"lbm", false⟩,  -- subsystems/mass/gasp_based/mass_summation.py:139
  ⟨t!"aircraft:electrical:mass", .output, some t!"lbm", false⟩,  -- subsystems/mass/gasp_based/electrical.py:22
  ⟨t!"aircraft:electrical:mass_scaler", .input, some t!"unitless", false⟩,  -- subsystems/mass/flops_based/electrical.py:24
  ⟨t!"aircraft:electrical:system_mass_per_passenger", .input, some t!"lbm", false⟩,  -- subsystems/mass/gasp_based/electrical.py:20
  ⟨t!"aircraft:engine:additional_mass", .input, some t!"lbm", true⟩,  -- subsystems/mass/gasp_based/engine.py:388
  ⟨t!"aircraft:engine:additional_mass", .output, some t!"lbm", true⟩,  -- subsystems/mass/gasp_based/engine.py:283
  ⟨t!"aircraft:engine:additional_mass_fraction", .option, none, false⟩,  -- subsystems/mass/gasp_based/engine.py:270
  ⟨t!"aircraft:engine:constant_fuel_mass_consumption", .option, some t!"lbm/h", false⟩,  -- subsystems/propulsion/engine_scaling.py:46
  ⟨t!"aircraft:engine:fixed_rpm", .option, some t!"rpm", false⟩,  -- subsystems/propulsion/motor/model/motor_mission.py:15
  ⟨t!"aircraft:engine:fuel_flow_scaler_constant_term", .option, none, false⟩,  -- subsystems/propulsion/engine_scaling.py:47
  ⟨t!"aircraft:engine:fuel_flow_scaler_linear_term", .option, none, false⟩,  -- subsystems/propulsion/engine_scaling.py:48
  ⟨t!"aircraft:engine:inlet_area_coefficient", .input, some t!"unitless", true⟩,  -- subsystems/geometry/gasp_based/engine.py:175
  ⟨t!"aircraft:engine:mass", .input, some t!"lbm", true⟩,  -- subsystems/mass/flops_based/engine_pod.py:31
  ⟨t!"aircraft:engine:mass", .output, some t!"lbm", true⟩,  -- subsystems/mass/flops_based/engine.py:33
  ⟨t!"aircraft:engine:mass_scaler", .input, some t!"unitless", true⟩,  -- subsystems/mass/gasp_based/engine.py:357
  ⟨t!"aircraft:engine:mass_specific", .input, some t!"lbm/lbf", true⟩,  -- subsystems/mass/gasp_based/engine.py:18
  ⟨t!"aircraft:engine:num_engines", .option, none, false⟩,  -- subsystems/aerodynamics/gasp_based/gaspaero.py:672
  ⟨t!"aircraft:engine:num_fuselage_engines", .option, none, false⟩,  -- subsystems/mass/flops_based/fuselage.py:203
  ⟨t!"aircraft:engine:num_wing_engines", .option, none, false⟩,  -- subsystems/mass/flops_based/wing_detailed.py:62
  ⟨t!"aircraft:engine:pod_mass", .input, some t!"lbm", true⟩,  -- subsystems/mass/gasp_based/engine.py:387
  ⟨t!"aircraft:engine:pod_mass", .output, some t!"lbm", true⟩,  -- subsystems/mass/gasp_based/engine.py:206
  ⟨t!"aircraft:engine:pod_mass_scaler", .input, none, true⟩,  -- subsystems/mass/gasp_based/engine.py:196
  ⟨t!"aircraft:engine:pylon_factor", .input, some t!"unitless", true⟩,  -- subsystems/mass/gasp_based/engine.py:34
  ⟨t!"aircraft:engine:reference_mass", .input, some t!"lbm", true⟩,  -- subsystems/mass/flops_based/engine.py:24
  ⟨t!"aircraft:engine:reference_sls_thrust", .input, some t!"lbf", false⟩,  -- subsystems/propulsion/engine_sizing.py:17
  ⟨t!"aircraft:engine:reference_sls_thrust", .input, some t!"lbf", true⟩,  -- subsystems/mass/flops_based/engine.py:28
  ⟨t!"aircraft:engine:rpm_design", .option, some t!"rpm", false⟩,  -- subsystems/propulsion/motor/model/motor_mission.py:14
  ⟨t!"aircraft:engine:scale_factor", .input, none, false⟩,  -- subsystems/propulsion/engine_scaling.py:56
  ⟨t!"aircraft:engine:scale_factor", .input, some t!"unitless", true⟩,  -- subsystems/mass/flops_based/anti_icing.py:32
  ⟨t!"aircraft:engine:scale_mass", .option, none, false⟩,  -- subsystems/mass/flops_based/engine.py:19
  ⟨t!"aircraft:engine:scaled_sls_thrust", .input, none, true⟩,  -- subsystems/mass/gasp_based/engine_oil.py:30
  ⟨t!"aircraft:engine:scaled_sls_thrust", .input, some t!"lbf", true⟩,  -- subsystems/mass/gasp_based/engine.py:21
  ⟨t!"aircraft:engine:scaled_sls_thrust", .output, some t!"lbf", false⟩]  -- subsystems/propulsion/engine_sizing.py:20

/-- First row: aviary/subsystems/propulsion/engine_scaling.py:49. -/
def calls2 : List Call := [
  ⟨t!"aircraft:engine:subsonic_fuel_flow_scaler", .option, none, false⟩,  -- subsystems/propulsion/engine_scaling.py:49
  ⟨t!"aircraft:engine:supersonic_fuel_flow_scaler", .option, none, false⟩,  -- subsystems/propulsion/engine_scaling.py:50
  ⟨t!"aircraft:engine:thrust_reversers_mass", .input, some t!"lbm", true⟩,  -- subsystems/mass/flops_based/engine_pod.py:33
  ⟨t!"aircraft:engine:thrust_reversers_mass", .output, some t!"lbm", true⟩,  -- subsystems/mass/flops_based/thrust_reverser.py:40
  ⟨t!"aircraft:engine:thrust_reversers_mass_scaler", .input, some t!"unitless", true⟩,  -- subsystems/mass/flops_based/thrust_reverser.py:30
  ⟨t!"aircraft:engine:type", .option, none, false⟩,  -- subsystems/mass/gasp_based/crew.py:18
  ⟨t!"aircraft:engine:wing_locations", .input, some t!"unitless", false⟩,  -- subsystems/mass/gasp_based/engine.py:370
  ⟨t!"aircraft:engine:wing_locations", .input, some t!"unitless", true⟩,  -- subsystems/mass/gasp_based/engine.py:363
  ⟨t!"aircraft:engine:motor:data_file", .option, none, false⟩,  -- subsystems/propulsion/motor/model/motor_map.py:27
  ⟨t!"aircraft:engine:propeller:activity_factor", .input, some t!"unitless", false⟩,  -- subsystems/propulsion/propeller/hamilton_standard.py:613
  ⟨t!"aircraft:engine:propeller:compute_installation_loss", .option, none, false⟩,  -- subsystems/propulsion/propeller/propeller_performance.py:406
  ⟨t!"aircraft:engine:propeller:data_file", .option, none, false⟩,  -- subsystems/propulsion/propeller/propeller_performance.py:407
  ⟨t!"aircraft:engine:propeller:diameter", .input, some t!"ft", false⟩,  -- subsystems/propulsion/propeller/propeller_performance.py:49
  ⟨t!"aircraft:engine:propeller:integrated_lift_coefficient", .input, some t!"unitless", false⟩,  -- subsystems/propulsion/propeller/hamilton_standard.py:616
  ⟨t!"aircraft:engine:propeller:mass", .input, some t!"lbm", true⟩,  -- subsystems/mass/gasp_based/engine.py:39
  ⟨t!"aircraft:engine:propeller:num_blades", .option, none, false⟩,  -- subsystems/propulsion/propeller/hamilton_standard.py:603
  ⟨t!"aircraft:engine:propeller:tip_mach_max", .input, some t!"unitless", false⟩,  -- subsystems/propulsion/propeller/propeller_performance.py:46
  ⟨t!"aircraft:engine:propeller:tip_speed_max", .input, some t!"ft/s", false⟩,  -- subsystems/propulsion/propeller/propeller_performance.py:48
  ⟨t!"aircraft:fins:area", .input, some t!"ft**2", false⟩,  -- subsystems/mass/flops_based/fin.py:19
  ⟨t!"aircraft:fins:mass", .input, some t!"lbm", false⟩,  -- subsystems/mass/flops_based/mass_summation.py:87
  ⟨t!"aircraft:fins:mass", .output, some t!"lbm", false⟩,  -- subsystems/mass/flops_based/fin.py:23
  ⟨t!"aircraft:fins:mass_scaler", .input, some t!"unitless", false⟩,  -- subsystems/mass/flops_based/fin.py:21
  ⟨t!"aircraft:fins:num_fins", .option, none, false⟩,  -- subsystems/mass/flops_based/fin.py:15
  ⟨t!"aircraft:fins:taper_ratio", .input, some t!"unitless", false⟩,  -- subsystems/mass/flops_based/fin.py:20
  ⟨t!"aircraft:fuel:auxiliary_fuel_mass_capacity", .input, some t!"lbm", false⟩,  -- subsystems/mass/flops_based/fuel_capacity.py:104
  ⟨t!"aircraft:fuel:auxiliary_fuel_mass_capacity", .output, some t!"lbm", false⟩,  -- subsystems/mass/gasp_based/fuel.py:49
  ⟨t!"aircraft:fuel:density", .input, some t!"lbm/ft**3", false⟩,  -- subsystems/mass/gasp_based/fuel.py:40
  ⟨t!"aircraft:fuel:density", .input, some t!"lbm/galUS", false⟩,  -- subsystems/mass/gasp_based/fuel.py:796
  ⟨t!"aircraft:fuel:fuel_system_mass", .input, some t!"lbm", false⟩,  -- subsystems/mass/gasp_based/mass_summation.py:109
  ⟨t!"aircraft:fuel:fuel_system_mass", .output, some t!"lbm", false⟩,  -- subsystems/mass/gasp_based/fuel.py:806
  ⟨t!"aircraft:fuel:fuel_system_mass_coefficient", .input, some t!"unitless", false⟩,  -- subsystems/mass/gasp_based/fuel.py:795
  ⟨t!"aircraft:fuel:fuel_system_mass_scaler", .input, some t!"unitless", false⟩,  -- subsystems/mass/gasp_based/fuel.py:794
  ⟨t!"aircraft:fuel:fuselage_fuel_mass_capacity", .input, some t!"lbm", false⟩,  -- subsystems/mass/flops_based/fuel_capacity.py:72
  ⟨t!"aircraft:fuel:fuselage_fuel_mass_capacity", .output, some t!"lbm", false⟩,  -- subsystems/mass/flops_based/fuel_capacity.py:48
  ⟨t!"aircraft:fuel:ignore_fuel_capacity_constraint", .option, none, false⟩,  -- subsystems/energy/fuel_summation.py:21
  ⟨t!"aircraft:fuel:max_capacity_mass", .input, some t!"lbm", false⟩,  -- subsystems/mass/gasp_based/fuel.py:500
  ⟨t!"aircraft:fuel:max_capacity_mass", .output, some t!"lbm", false⟩,  -- subsystems/mass/gasp_based/fuel.py:61
  ⟨t!"aircraft:fuel:max_capacity_volume", .output, some t!"galUS", false⟩,  -- subsystems/mass/flops_based/unusable_fuel.py:35
  ⟨t!"aircraft:fuel:num_tanks", .option, none, false⟩,  -- subsystems/mass/flops_based/fuel_system.py:70
  ⟨t!"aircraft:fuel:unusable_fuel_mass", .input, some t!"lbm", false⟩,  -- subsystems/mass/gasp_based/mass_summation.py:206
  ⟨t!"aircraft:fuel:unusable_fuel_mass", .output, some t!"lbm", false⟩,  -- subsystems/mass/gasp_based/fuel_capacity.py:22
  ⟨t!"aircraft:fuel:unusable_fuel_mass_coefficient", .input, some t!"unitless", false⟩,  -- subsystems/mass/gasp_based/fuel_capacity.py:18
  ⟨t!"aircraft:fuel:unusable_fuel_mass_scaler", .input, some t!"unitless", false⟩,  -- subsystems/mass/flops_based/unusable_fuel.py:29
  ⟨t!"aircraft:fuel:volume_margin", .input, some t!"unitless", false⟩,  -- subsystems/mass/gasp_based/fuel.py:499
  ⟨t!"aircraft:fuel:wing_fuel_fraction", .input, some t!"unitless", false⟩,  -- subsystems/mass/gasp_based/fuel_capacity.py:20
  ⟨t!"aircraft:fuel:wing_fuel_mass_capacity", .input, some t!"lbm", false⟩,  -- subsystems/mass/flops_based/fuel_capacity.py:47
  ⟨t!"aircraft:fuel:wing_fuel_mass_capacity", .output, some t!"lbm", false⟩,  -- subsystems/mass/flops_based/fuel_capacity.py:137
  ⟨t!"aircraft:fuel:wing_volume_design", .input, some t!"ft**3", false⟩,  -- subsystems/mass/gasp_based/fuel.py:30
  ⟨t!"aircraft:fuel:wing_volume_design", .output, some t!"ft**3", false⟩,  -- subsystems/mass/gasp_based/fuel.py:516
  ⟨t!"aircraft:fuel:wing_volume_geometric_max", .input, some t!"ft**3", false⟩,  -- subsystems/mass/gasp_based/fuel.py:39
  ⟨t!"aircraft:fuel:wing_volume_geometric_max", .output, some t!"ft**3", false⟩,  -- subsystems/geometry/gasp_based/wing.py:349
  ⟨t!"aircraft:fuel:wing_volume_structural_max", .input, some t!"ft**3", false⟩,  -- subsystems/mass/gasp_based/fuel.py:31
  ⟨t!"aircraft:fuel:wing_volume_structural_max", .output, some t!"ft**3", false⟩,  -- subsystems/mass/gasp_based/fuel.py:530
  ⟨t!"aircraft:furnishings:mass", .input, some t!"lbm", false⟩,  -- subsystems/mass/gasp_based/mass_summation.py:140
  ⟨t!"aircraft:furnishings:mass", .output, some t!"lbm", false⟩,  -- subsystems/mass/gasp_based/furnishings.py:352
  ⟨t!"aircraft:furnishings:mass_base", .input, some t!"lbm", false⟩,  -- subsystems/mass/flops_based/mass_summation.py:239
  ⟨t!"aircraft:furnishings:mass_base", .output, some t!"lbm", false⟩,  -- subsystems/mass/flops_based/furnishings.py:228
  ⟨t!"aircraft:furnishings:mass_scaler", .input, some t!"unitless", false⟩,  -- subsystems/mass/gasp_based/furnishings.py:349
  ⟨t!"aircraft:furnishings:use_empirical_equation", .option, none, false⟩,  -- subsystems/mass/gasp_based/furnishings.py:342
  ⟨t!"aircraft:fuselage:aftbody_mass", .output, some t!"lbm", false⟩,  -- subsystems/mass/flops_based/fuselage.py:215
  ⟨t!"aircraft:fuselage:aftbody_mass_per_unit_area", .input, some t!"lbm/ft**2", false⟩,  -- subsystems/mass/gasp_based/fuel.py:1156
  ⟨t!"aircraft:fuselage:aisle_width", .input, some t!"inch", false⟩,  -- subsystems/geometry/gasp_based/fuselage.py:22
  ⟨t!"aircraft:fuselage:avg_diameter", .input, none, false⟩,  -- subsystems/aerodynamics/gasp_based/interference.py:59
  ⟨t!"aircraft:fuselage:avg_diameter", .input, some t!"ft", false⟩,  -- subsystems/aerodynamics/gasp_based/gaspaero.py:129
  ⟨t!"aircraft:fuselage:avg_diameter", .output, some t!"ft", false⟩,  -- subsystems/geometry/gasp_based/fuselage.py:306
  ⟨t!"aircraft:fuselage:avg_diameter", .output, some t!"inch", false⟩,  -- subsystems/geometry/gasp_based/fuselage.py:25
  ⟨t!"aircraft:fuselage:cabin_area", .input, some t!"ft**2", false⟩,  -- subsystems/mass/gasp_based/fuel.py:1150
  ⟨t!"aircraft:fuselage:cabin_area", .output, some t!"ft**2", false⟩,  -- subsystems/geometry/gasp_based/fuselage.py:140
  ⟨t!"aircraft:fuselage:cabin_sidewall_length_min", .option, none, false⟩,  -- subsystems/geometry/flops_based/fuselage.py:637
  ⟨t!"aircraft:fuselage:characteristic_length", .input, some t!"ft", false⟩,  -- subsystems/aerodynamics/flops_based/drag_polar.py:40
  ⟨t!"aircraft:fuselage:characteristic_length", .output, some t!"ft", false⟩,  -- subsystems/geometry/flops_based/characteristic_lengths.py:190
  ⟨t!"aircraft:fuselage:cross_section", .input, some t!"ft**2", false⟩,  -- subsystems/aerodynamics/flops_based/compressibility_drag.py:34
  ⟨t!"aircraft:fuselage:cross_section", .output, some t!"ft**2", false⟩,  -- subsystems/geometry/flops_based/wetted_area_total.py:791
  ⟨t!"aircraft:fuselage:delta_diameter", .input, some t!"ft", false⟩,  -- subsystems/geometry/gasp_based/fuselage.py:21
  ⟨t!"aircraft:fuselage:diameter_to_wing_span", .input, some t!"unitless", false⟩,  -- subsystems/aerodynamics/flops_based/compressibility_drag.py:35
  ⟨t!"aircraft:fuselage:diameter_to_wing_span", .output, some t!"unitless", false⟩,  -- subsystems/geometry/flops_based/prep_geom.py:190
  ⟨t!"aircraft:fuselage:drag_factor", .input, none, false⟩,  -- subsystems/aerodynamics/gasp_based/gaspaero.py:743
  ⟨t!"aircraft:fuselage:fineness", .input, some t!"unitless", false⟩,  -- subsystems/aerodynamics/flops_based/drag_polar.py:33
  ⟨t!"aircraft:fuselage:fineness", .output, some t!"unitless", false⟩,  -- subsystems/geometry/flops_based/characteristic_lengths.py:191
  ⟨t!"aircraft:fuselage:flat_plate_area_increment", .input, some t!"ft**2", false⟩,  -- subsystems/aerodynamics/gasp_based/gaspaero.py:708
  ⟨t!"aircraft:fuselage:form_factor", .input, some t!"unitless", false⟩,  -- subsystems/aerodynamics/gasp_based/gaspaero.py:691
  ⟨t!"aircraft:fuselage:form_factor", .output, some t!"unitless", false⟩,  -- subsystems/aerodynamics/gasp_based/gasp_aero_coeffs.py:214
  ⟨t!"aircraft:fuselage:height_to_width_ratio", .input, some t!"unitless", false⟩,  -- subsystems/geometry/gasp_based/fuselage.py:300
  ⟨t!"aircraft:fuselage:hydraulic_diameter", .input, some t!"ft", false⟩,  -- subsystems/aerodynamics/gasp_based/gaspaero.py:488
  ⟨t!"aircraft:fuselage:hydraulic_diameter", .output, some t!"ft", false⟩,  -- subsystems/geometry/gasp_based/fuselage.py:307
  ⟨t!"aircraft:fuselage:laminar_flow_lower", .input, some t!"unitless", false⟩,  -- subsystems/aerodynamics/flops_based/mux_component.py:73
  ⟨t!"aircraft:fuselage:laminar_flow_upper", .input, some t!"unitless", false⟩,  -- subsystems/aerodynamics/flops_based/mux_component.py:72
  ⟨t!"aircraft:fuselage:length", .input, some t!"ft", false⟩,  -- subsystems/aerodynamics/gasp_based/gaspaero.py:722
  ⟨t!"aircraft:fuselage:length", .output, some t!"ft", false⟩,  -- subsystems/geometry/gasp_based/fuselage.py:137
  ⟨t!"aircraft:fuselage:length_to_diameter", .input, some t!"unitless", false⟩,  -- subsystems/aerodynamics/flops_based/compressibility_drag.py:36
  ⟨t!"aircraft:fuselage:length_to_diameter", .output, some t!"unitless", false⟩,  -- subsystems/geometry/flops_based/prep_geom.py:191
  ⟨t!"aircraft:fuselage:lift_coefficient_ratio_body_to_wing", .input, some t!"unitless", false⟩,  -- subsystems/mass/gasp_based/wing.py:427
  ⟨t!"aircraft:fuselage:lift_curve_slope_mach0", .input, some t!"1/rad", false⟩,  -- subsystems/aerodynamics/gasp_based/gaspaero.py:223
  ⟨t!"aircraft:fuselage:mass", .input, some t!"lbm", false⟩,  -- subsystems/mass/gasp_based/mass_summation.py:78
  ⟨t!"aircraft:fuselage:mass", .output, some t!"lbm", false⟩,  -- subsystems/mass/gasp_based/fuel.py:923
  ⟨t!"aircraft:fuselage:mass_coefficient", .input, some t!"unitless", false⟩,  -- subsystems/mass/gasp_based/fuel.py:904
  ⟨t!"aircraft:fuselage:mass_scaler", .input, none, false⟩,  -- subsystems/mass/gasp_based/fuel.py:1158
  ⟨t!"aircraft:fuselage:mass_scaler", .input, some t!"unitless", false⟩,  -- subsystems/mass/gasp_based/fuel.py:903
  ⟨t!"aircraft:fuselage:max_height", .input, some t!"ft", false⟩,  -- subsystems/mass/flops_based/air_conditioning.py:22
  ⟨t!"aircraft:fuselage:max_height", .output, some t!"ft", false⟩]  -- subsystems/geometry/flops_based/fuselage.py:194

/-- First row: aviary/subsystems/mass/flops_based/wing_detailed.py:342. -/
def calls3 : List Call := [
  ⟨t!"aircraft:fuselage:max_width", .input, some t!"ft", false⟩,  -- subsystems/mass/flops_based/wing_detailed.py:342
  ⟨t!"aircraft:fuselage:max_width", .output, some t!"ft", false⟩,  -- subsystems/geometry/flops_based/fuselage.py:193
  ⟨t!"aircraft:fuselage:military_cargo_floor", .option, none, false⟩,  -- subsystems/mass/flops_based/fuselage.py:18
  ⟨t!"aircraft:fuselage:nose_fineness", .input, some t!"unitless", false⟩,  -- subsystems/geometry/gasp_based/fuselage.py:129
  ⟨t!"aircraft:fuselage:num_aisles", .option, none, false⟩,  -- subsystems/geometry/gasp_based/fuselage.py:15
  ⟨t!"aircraft:fuselage:num_aisles", .option, some t!"unitless", false⟩,  -- subsystems/geometry/gasp_based/fuselage.py:451
  ⟨t!"aircraft:fuselage:num_fuselages", .option, none, false⟩,  -- subsystems/aerodynamics/flops_based/skin_friction.py:42
  ⟨t!"aircraft:fuselage:passenger_compartment_length", .input, some t!"ft", false⟩,  -- subsystems/mass/flops_based/furnishings.py:24
  ⟨t!"aircraft:fuselage:passenger_compartment_length", .output, some t!"ft", false⟩,  -- subsystems/geometry/flops_based/fuselage.py:130
  ⟨t!"aircraft:fuselage:pilot_compartment_length", .input, some t!"ft", false⟩,  -- subsystems/geometry/gasp_based/fuselage.py:131
  ⟨t!"aircraft:fuselage:planform_area", .input, some t!"ft**2", false⟩,  -- subsystems/aerodynamics/gasp_based/gaspaero.py:1771
  ⟨t!"aircraft:fuselage:planform_area", .output, some t!"ft**2", false⟩,  -- subsystems/geometry/gasp_based/fuselage.py:731
  ⟨t!"aircraft:fuselage:pressure_differential", .input, some t!"psi", false⟩,  -- subsystems/mass/gasp_based/air_conditioning.py:133
  ⟨t!"aircraft:fuselage:pressurized_width_additional", .input, some t!"ft", false⟩,  -- subsystems/geometry/gasp_based/fuselage.py:301
  ⟨t!"aircraft:fuselage:ref_diameter", .input, some t!"ft", false⟩,  -- subsystems/mass/flops_based/fuselage.py:25
  ⟨t!"aircraft:fuselage:ref_diameter", .output, some t!"ft", false⟩,  -- subsystems/geometry/flops_based/fuselage.py:25
  ⟨t!"aircraft:fuselage:seat_width_business", .input, none, false⟩,  -- subsystems/geometry/flops_based/fuselage.py:187
  ⟨t!"aircraft:fuselage:seat_width_business", .input, some t!"inch", false⟩,  -- subsystems/geometry/gasp_based/fuselage.py:472
  ⟨t!"aircraft:fuselage:seat_width_economy", .input, none, false⟩,  -- subsystems/geometry/flops_based/fuselage.py:189
  ⟨t!"aircraft:fuselage:seat_width_economy", .input, some t!"inch", false⟩,  -- subsystems/geometry/gasp_based/fuselage.py:23
  ⟨t!"aircraft:fuselage:seat_width_first", .input, none, false⟩,  -- subsystems/geometry/flops_based/fuselage.py:188
  ⟨t!"aircraft:fuselage:seat_width_first", .input, some t!"inch", false⟩,  -- subsystems/geometry/gasp_based/fuselage.py:471
  ⟨t!"aircraft:fuselage:sidebody_thickness_to_chord", .input, some t!"unitless", false⟩,  -- subsystems/geometry/flops_based/wing_detailed_bwb.py:225
  ⟨t!"aircraft:fuselage:simple_layout", .option, none, false⟩,  -- subsystems/geometry/flops_based/prep_geom.py:40
  ⟨t!"aircraft:fuselage:tail_fineness", .input, some t!"unitless", false⟩,  -- subsystems/geometry/gasp_based/fuselage.py:133
  ⟨t!"aircraft:fuselage:wetted_area", .input, some t!"ft**2", false⟩,  -- subsystems/aerodynamics/gasp_based/gaspaero.py:725
  ⟨t!"aircraft:fuselage:wetted_area", .output, some t!"ft**2", false⟩,  -- subsystems/geometry/gasp_based/fuselage.py:138
  ⟨t!"aircraft:fuselage:wetted_area_ratio_aftbody_to_total", .input, some t!"unitless", false⟩,  -- subsystems/mass/gasp_based/fuel.py:1153
  ⟨t!"aircraft:fuselage:wetted_area_scaler", .input, some t!"unitless", false⟩,  -- subsystems/geometry/gasp_based/fuselage.py:135
  ⟨t!"aircraft:horizontal_tail:area", .input, some t!"ft**2", false⟩,  -- subsystems/aerodynamics/gasp_based/gaspaero.py:125
  ⟨t!"aircraft:horizontal_tail:aspect_ratio", .input, some t!"unitless", false⟩,  -- subsystems/geometry/flops_based/characteristic_lengths.py:442
  ⟨t!"aircraft:horizontal_tail:average_chord", .input, some t!"ft", false⟩,  -- subsystems/aerodynamics/gasp_based/gaspaero.py:127
  ⟨t!"aircraft:horizontal_tail:characteristic_length", .input, some t!"ft", false⟩,  -- subsystems/aerodynamics/flops_based/drag_polar.py:41
  ⟨t!"aircraft:horizontal_tail:characteristic_length", .output, some t!"ft", false⟩,  -- subsystems/geometry/flops_based/characteristic_lengths.py:447
  ⟨t!"aircraft:horizontal_tail:drag_factor", .input, none, false⟩,  -- subsystems/aerodynamics/gasp_based/gaspaero.py:744
  ⟨t!"aircraft:horizontal_tail:fineness", .input, some t!"unitless", false⟩,  -- subsystems/aerodynamics/flops_based/drag_polar.py:34
  ⟨t!"aircraft:horizontal_tail:fineness", .output, some t!"unitless", false⟩,  -- subsystems/geometry/flops_based/characteristic_lengths.py:448
  ⟨t!"aircraft:horizontal_tail:form_factor", .input, some t!"unitless", false⟩,  -- subsystems/aerodynamics/gasp_based/gaspaero.py:702
  ⟨t!"aircraft:horizontal_tail:form_factor", .output, some t!"unitless", false⟩,  -- subsystems/aerodynamics/gasp_based/gasp_aero_coeffs.py:38
  ⟨t!"aircraft:horizontal_tail:laminar_flow_lower", .input, some t!"unitless", false⟩,  -- subsystems/aerodynamics/flops_based/mux_component.py:51
  ⟨t!"aircraft:horizontal_tail:laminar_flow_upper", .input, some t!"unitless", false⟩,  -- subsystems/aerodynamics/flops_based/mux_component.py:50
  ⟨t!"aircraft:horizontal_tail:mass", .input, some t!"lbm", false⟩,  -- subsystems/mass/gasp_based/mass_summation.py:60
  ⟨t!"aircraft:horizontal_tail:mass", .output, some t!"lbm", false⟩,  -- subsystems/mass/gasp_based/fixed.py:594
  ⟨t!"aircraft:horizontal_tail:mass_coefficient", .input, some t!"unitless", false⟩,  -- subsystems/mass/gasp_based/fixed.py:582
  ⟨t!"aircraft:horizontal_tail:mass_scaler", .input, none, false⟩,  -- subsystems/mass/gasp_based/fixed.py:592
  ⟨t!"aircraft:horizontal_tail:mass_scaler", .input, some t!"unitless", false⟩,  -- subsystems/mass/flops_based/horizontal_tail.py:21
  ⟨t!"aircraft:horizontal_tail:moment_arm", .input, some t!"ft", false⟩,  -- subsystems/mass/gasp_based/fixed.py:589
  ⟨t!"aircraft:horizontal_tail:moment_ratio", .input, some t!"unitless", false⟩,  -- subsystems/aerodynamics/gasp_based/gaspaero.py:303
  ⟨t!"aircraft:horizontal_tail:num_tails", .option, none, false⟩,  -- subsystems/aerodynamics/flops_based/skin_friction.py:43
  ⟨t!"aircraft:horizontal_tail:root_chord", .input, some t!"ft", false⟩,  -- subsystems/mass/gasp_based/fixed.py:591
  ⟨t!"aircraft:horizontal_tail:span", .input, some t!"ft", false⟩,  -- subsystems/aerodynamics/gasp_based/gaspaero.py:121
  ⟨t!"aircraft:horizontal_tail:sweep", .input, some t!"deg", false⟩,  -- subsystems/aerodynamics/gasp_based/gaspaero.py:301
  ⟨t!"aircraft:horizontal_tail:sweep", .input, some t!"rad", false⟩,  -- subsystems/aerodynamics/gasp_based/gasp_aero_coeffs.py:28
  ⟨t!"aircraft:horizontal_tail:taper_ratio", .input, some t!"unitless", false⟩,  -- subsystems/mass/gasp_based/fixed.py:586
  ⟨t!"aircraft:horizontal_tail:thickness_to_chord", .input, some t!"unitless", false⟩,  -- subsystems/aerodynamics/gasp_based/gasp_aero_coeffs.py:24
  ⟨t!"aircraft:horizontal_tail:vertical_tail_mount_location", .input, some t!"unitless", false⟩,  -- subsystems/aerodynamics/gasp_based/gaspaero.py:119
  ⟨t!"aircraft:horizontal_tail:wetted_area", .input, some t!"ft**2", false⟩,  -- subsystems/aerodynamics/flops_based/drag_polar.py:27
  ⟨t!"aircraft:horizontal_tail:wetted_area", .output, some t!"ft**2", false⟩,  -- subsystems/geometry/flops_based/wetted_area_total.py:670
  ⟨t!"aircraft:horizontal_tail:wetted_area_scaler", .input, some t!"unitless", false⟩,  -- subsystems/geometry/flops_based/wetted_area_total.py:665
  ⟨t!"aircraft:hydraulics:flight_control_mass_coefficient", .input, some t!"unitless", false⟩,  -- subsystems/mass/gasp_based/hydraulics.py:20
  ⟨t!"aircraft:hydraulics:gear_mass_coefficient", .input, some t!"unitless", false⟩,  -- subsystems/mass/gasp_based/hydraulics.py:23
  ⟨t!"aircraft:hydraulics:mass", .input, some t!"lbm", false⟩,  -- subsystems/mass/gasp_based/mass_summation.py:141
  ⟨t!"aircraft:hydraulics:mass", .output, some t!"lbm", false⟩,  -- subsystems/mass/gasp_based/hydraulics.py:27
  ⟨t!"aircraft:hydraulics:mass_scaler", .input, some t!"unitless", false⟩,  -- subsystems/mass/flops_based/hydraulics.py:26
  ⟨t!"aircraft:hydraulics:system_pressure", .input, some t!"psi", false⟩,  -- subsystems/mass/flops_based/hydraulics.py:25
  ⟨t!"aircraft:instruments:mass", .input, some t!"lbm", false⟩,  -- subsystems/mass/gasp_based/mass_summation.py:142
  ⟨t!"aircraft:instruments:mass", .output, some t!"lbm", false⟩,  -- subsystems/mass/gasp_based/instruments.py:28
  ⟨t!"aircraft:instruments:mass_coefficient", .input, some t!"unitless", false⟩,  -- subsystems/mass/gasp_based/instruments.py:26
  ⟨t!"aircraft:instruments:mass_scaler", .input, some t!"unitless", false⟩,  -- subsystems/mass/flops_based/instruments.py:26
  ⟨t!"aircraft:landing_gear:drag_coefficient", .option, none, false⟩,  -- subsystems/aerodynamics/flops_based/takeoff_aero_group.py:75
  ⟨t!"aircraft:landing_gear:fixed_gear", .option, none, false⟩,  -- subsystems/mass/gasp_based/hydraulics.py:17
  ⟨t!"aircraft:landing_gear:main_gear_location", .input, some t!"unitless", false⟩,  -- subsystems/mass/gasp_based/fixed.py:42
  ⟨t!"aircraft:landing_gear:main_gear_mass", .input, some t!"lbm", false⟩,  -- subsystems/mass/gasp_based/engine.py:359
  ⟨t!"aircraft:landing_gear:main_gear_mass", .output, some t!"lbm", false⟩,  -- subsystems/mass/gasp_based/landing.py:186
  ⟨t!"aircraft:landing_gear:main_gear_mass_fraction", .input, some t!"unitless", false⟩,  -- subsystems/mass/gasp_based/landing.py:184
  ⟨t!"aircraft:landing_gear:main_gear_mass_scaler", .input, some t!"unitless", false⟩,  -- subsystems/mass/flops_based/landing_gear.py:69
  ⟨t!"aircraft:landing_gear:main_gear_oleo_length", .input, some t!"inch", false⟩,  -- subsystems/mass/flops_based/landing_gear.py:68
  ⟨t!"aircraft:landing_gear:main_gear_oleo_length", .output, some t!"inch", false⟩,  -- subsystems/geometry/flops_based/landing_gear.py:71
  ⟨t!"aircraft:landing_gear:mass_coefficient", .input, some t!"unitless", false⟩,  -- subsystems/mass/gasp_based/landing.py:52
  ⟨t!"aircraft:landing_gear:nose_gear_mass", .input, some t!"lbm", false⟩,  -- subsystems/mass/flops_based/landing_gear.py:45
  ⟨t!"aircraft:landing_gear:nose_gear_mass", .output, some t!"lbm", false⟩,  -- subsystems/mass/gasp_based/landing.py:187
  ⟨t!"aircraft:landing_gear:nose_gear_mass_scaler", .input, some t!"unitless", false⟩,  -- subsystems/mass/flops_based/landing_gear.py:132
  ⟨t!"aircraft:landing_gear:nose_gear_oleo_length", .input, some t!"inch", false⟩,  -- subsystems/mass/flops_based/landing_gear.py:131
  ⟨t!"aircraft:landing_gear:nose_gear_oleo_length", .output, some t!"inch", false⟩,  -- subsystems/geometry/flops_based/landing_gear.py:22
  ⟨t!"aircraft:landing_gear:tail_hook_mass_scaler", .input, some t!"unitless", false⟩,  -- subsystems/mass/gasp_based/fixed.py:585
  ⟨t!"aircraft:landing_gear:total_mass", .input, some t!"lbm", false⟩,  -- subsystems/mass/gasp_based/landing.py:185
  ⟨t!"aircraft:landing_gear:total_mass", .output, some t!"lbm", false⟩,  -- subsystems/mass/gasp_based/landing.py:63
  ⟨t!"aircraft:landing_gear:total_mass_scaler", .input, none, false⟩,  -- subsystems/mass/gasp_based/landing.py:61
  ⟨t!"aircraft:nacelle:avg_diameter", .input, some t!"ft", true⟩,  -- subsystems/aerodynamics/gasp_based/gasp_aero_coeffs.py:33
  ⟨t!"aircraft:nacelle:avg_diameter", .output, some t!"ft", true⟩,  -- subsystems/geometry/gasp_based/engine.py:183
  ⟨t!"aircraft:nacelle:avg_length", .input, some t!"ft", true⟩,  -- subsystems/aerodynamics/gasp_based/gaspaero.py:723
  ⟨t!"aircraft:nacelle:avg_length", .output, some t!"ft", true⟩,  -- subsystems/geometry/gasp_based/engine.py:271
  ⟨t!"aircraft:nacelle:characteristic_length", .input, some t!"ft", true⟩,  -- subsystems/aerodynamics/flops_based/mux_component.py:87
  ⟨t!"aircraft:nacelle:characteristic_length", .output, some t!"ft", true⟩,  -- subsystems/geometry/flops_based/characteristic_lengths.py:319
  ⟨t!"aircraft:nacelle:clearance_ratio", .input, some t!"unitless", true⟩,  -- subsystems/mass/gasp_based/landing.py:54
  ⟨t!"aircraft:nacelle:core_diameter_ratio", .input, some t!"unitless", true⟩,  -- subsystems/geometry/gasp_based/engine.py:179
  ⟨t!"aircraft:nacelle:drag_factor", .input, none, false⟩,  -- subsystems/aerodynamics/gasp_based/gaspaero.py:746
  ⟨t!"aircraft:nacelle:fineness", .input, some t!"unitless", true⟩,  -- subsystems/aerodynamics/flops_based/drag_polar.py:35
  ⟨t!"aircraft:nacelle:fineness", .output, some t!"unitless", true⟩,  -- subsystems/geometry/flops_based/characteristic_lengths.py:322
  ⟨t!"aircraft:nacelle:form_factor", .input, some t!"unitless", true⟩]  -- subsystems/aerodynamics/gasp_based/gaspaero.py:697

/-- First row: aviary/subsystems/aerodynamics/gasp_based/gasp_aero_coeffs.py:40. -/
def calls4 : List Call := [
  ⟨t!"aircraft:nacelle:form_factor", .output, some t!"unitless", true⟩,  -- subsystems/aerodynamics/gasp_based/gasp_aero_coeffs.py:40
  ⟨t!"aircraft:nacelle:laminar_flow_lower", .input, some t!"unitless", true⟩,  -- subsystems/aerodynamics/flops_based/mux_component.py:99
  ⟨t!"aircraft:nacelle:laminar_flow_upper", .input, some t!"unitless", true⟩,  -- subsystems/aerodynamics/flops_based/mux_component.py:93
  ⟨t!"aircraft:nacelle:mass", .input, some t!"lbm", true⟩,  -- subsystems/mass/gasp_based/engine.py:197
  ⟨t!"aircraft:nacelle:mass", .output, none, true⟩,  -- subsystems/mass/gasp_based/engine.py:48
  ⟨t!"aircraft:nacelle:mass", .output, some t!"lbm", true⟩,  -- subsystems/mass/flops_based/nacelle.py:40
  ⟨t!"aircraft:nacelle:mass_scaler", .input, some t!"unitless", true⟩,  -- subsystems/mass/gasp_based/engine.py:31
  ⟨t!"aircraft:nacelle:mass_specific", .input, some t!"lbm/ft**2", true⟩,  -- subsystems/mass/gasp_based/engine.py:24
  ⟨t!"aircraft:nacelle:percent_diam_buried_in_fuselage", .input, some t!"unitless", true⟩,  -- subsystems/geometry/gasp_based/engine.py:109
  ⟨t!"aircraft:nacelle:pylon_drag_factor", .input, none, false⟩,  -- subsystems/aerodynamics/gasp_based/gaspaero.py:747
  ⟨t!"aircraft:nacelle:surface_area", .input, some t!"ft**2", true⟩,  -- subsystems/aerodynamics/gasp_based/gaspaero.py:726
  ⟨t!"aircraft:nacelle:surface_area", .output, some t!"ft**2", true⟩,  -- subsystems/geometry/gasp_based/engine.py:319
  ⟨t!"aircraft:nacelle:total_wetted_area", .input, some t!"ft**2", false⟩,  -- subsystems/geometry/flops_based/wetted_area_total.py:984
  ⟨t!"aircraft:nacelle:total_wetted_area", .output, some t!"ft**2", false⟩,  -- subsystems/geometry/flops_based/nacelle.py:137
  ⟨t!"aircraft:nacelle:wetted_area", .input, some t!"ft**2", true⟩,  -- subsystems/aerodynamics/flops_based/drag_polar.py:28
  ⟨t!"aircraft:nacelle:wetted_area", .output, some t!"ft**2", true⟩,  -- subsystems/geometry/flops_based/nacelle.py:28
  ⟨t!"aircraft:nacelle:wetted_area_scaler", .input, some t!"unitless", true⟩,  -- subsystems/geometry/flops_based/nacelle.py:21
  ⟨t!"aircraft:oxygen_system:mass", .input, some t!"lbm", false⟩,  -- subsystems/mass/gasp_based/mass_summation.py:144
  ⟨t!"aircraft:oxygen_system:mass", .output, some t!"lbm", false⟩,  -- subsystems/mass/gasp_based/oxygen_system.py:25
  ⟨t!"aircraft:paint:mass", .input, some t!"lbm", false⟩,  -- subsystems/mass/flops_based/mass_summation.py:116
  ⟨t!"aircraft:paint:mass", .output, some t!"lbm", false⟩,  -- subsystems/mass/flops_based/paint.py:14
  ⟨t!"aircraft:paint:mass_per_unit_area", .input, some t!"lbm/ft**2", false⟩,  -- subsystems/mass/flops_based/paint.py:12
  ⟨t!"aircraft:propulsion:engine_oil_mass_scaler", .input, some t!"unitless", false⟩,  -- subsystems/mass/flops_based/engine_oil.py:29
  ⟨t!"aircraft:propulsion:engine_position_factor", .input, none, false⟩,  -- subsystems/mass/gasp_based/wing.py:31
  ⟨t!"aircraft:propulsion:engine_position_factor", .output, some t!"unitless", false⟩,  -- subsystems/mass/gasp_based/fixed.py:55
  ⟨t!"aircraft:propulsion:mass", .input, some t!"lbm", false⟩,  -- subsystems/mass/gasp_based/mass_summation.py:180
  ⟨t!"aircraft:propulsion:mass", .output, some t!"lbm", false⟩,  -- subsystems/mass/gasp_based/mass_summation.py:117
  ⟨t!"aircraft:propulsion:misc_mass_scaler", .input, some t!"unitless", false⟩,  -- subsystems/mass/gasp_based/engine.py:281
  ⟨t!"aircraft:propulsion:total_engine_controls_mass", .input, some t!"lbm", false⟩,  -- subsystems/mass/flops_based/misc_engine.py:27
  ⟨t!"aircraft:propulsion:total_engine_controls_mass", .output, some t!"lbm", false⟩,  -- subsystems/mass/flops_based/engine_controls.py:34
  ⟨t!"aircraft:propulsion:total_engine_mass", .input, some t!"lbm", false⟩,  -- subsystems/mass/flops_based/mass_summation.py:157
  ⟨t!"aircraft:propulsion:total_engine_mass", .output, some t!"lbm", false⟩,  -- subsystems/mass/gasp_based/engine.py:47
  ⟨t!"aircraft:propulsion:total_engine_oil_mass", .input, some t!"lbm", false⟩,  -- subsystems/mass/gasp_based/mass_summation.py:207
  ⟨t!"aircraft:propulsion:total_engine_oil_mass", .output, some t!"lbm", false⟩,  -- subsystems/mass/gasp_based/engine_oil.py:32
  ⟨t!"aircraft:propulsion:total_engine_pod_mass", .input, some t!"lbm", false⟩,  -- subsystems/mass/gasp_based/mass_summation.py:80
  ⟨t!"aircraft:propulsion:total_engine_pod_mass", .output, some t!"lbm", false⟩,  -- subsystems/mass/gasp_based/engine.py:205
  ⟨t!"aircraft:propulsion:total_misc_mass", .input, some t!"lbm", false⟩,  -- subsystems/mass/flops_based/mass_summation.py:155
  ⟨t!"aircraft:propulsion:total_misc_mass", .output, some t!"lbm", false⟩,  -- subsystems/mass/flops_based/misc_engine.py:30
  ⟨t!"aircraft:propulsion:total_num_engines", .option, none, false⟩,  -- subsystems/mass/gasp_based/fixed.py:328
  ⟨t!"aircraft:propulsion:total_num_fuselage_engines", .option, none, false⟩,  -- subsystems/mass/flops_based/instruments.py:20
  ⟨t!"aircraft:propulsion:total_num_wing_engines", .option, none, false⟩,  -- subsystems/mass/gasp_based/fixed.py:24
  ⟨t!"aircraft:propulsion:total_scaled_sls_thrust", .input, none, false⟩,  -- mission/energy_state/phases/simplified_takeoff.py:101
  ⟨t!"aircraft:propulsion:total_scaled_sls_thrust", .input, some t!"lbf", false⟩,  -- subsystems/mass/flops_based/engine_controls.py:32
  ⟨t!"aircraft:propulsion:total_scaled_sls_thrust", .output, none, false⟩,  -- subsystems/propulsion/propulsion_premission.py:201
  ⟨t!"aircraft:propulsion:total_starter_mass", .input, some t!"lbm", false⟩,  -- subsystems/mass/flops_based/misc_engine.py:28
  ⟨t!"aircraft:propulsion:total_starter_mass", .output, some t!"lbm", false⟩,  -- subsystems/mass/flops_based/starter.py:34
  ⟨t!"aircraft:propulsion:total_thrust_reversers_mass", .input, some t!"lbm", false⟩,  -- subsystems/mass/flops_based/mass_summation.py:156
  ⟨t!"aircraft:propulsion:total_thrust_reversers_mass", .output, some t!"lbm", false⟩,  -- subsystems/mass/flops_based/thrust_reverser.py:43
  ⟨t!"aircraft:strut:area", .output, some t!"ft**2", false⟩,  -- subsystems/geometry/gasp_based/strut.py:21
  ⟨t!"aircraft:strut:area_ratio", .input, some t!"unitless", false⟩,  -- subsystems/aerodynamics/gasp_based/gaspaero.py:716
  ⟨t!"aircraft:strut:attachment_location", .input, some t!"ft", false⟩,  -- subsystems/geometry/gasp_based/strut.py:16
  ⟨t!"aircraft:strut:attachment_location", .output, some t!"ft", false⟩,  -- subsystems/geometry/gasp_based/non_dimensional_conversion.py:26
  ⟨t!"aircraft:strut:attachment_location_dimensionless", .input, some t!"unitless", false⟩,  -- subsystems/mass/gasp_based/fixed.py:40
  ⟨t!"aircraft:strut:attachment_location_dimensionless", .output, some t!"unitless", false⟩,  -- subsystems/geometry/gasp_based/non_dimensional_conversion.py:19
  ⟨t!"aircraft:strut:chord", .input, some t!"ft", false⟩,  -- subsystems/aerodynamics/gasp_based/gaspaero.py:730
  ⟨t!"aircraft:strut:chord", .output, some t!"ft", false⟩,  -- subsystems/geometry/gasp_based/strut.py:22
  ⟨t!"aircraft:strut:dimensional_location_specified", .option, none, false⟩,  -- subsystems/geometry/gasp_based/non_dimensional_conversion.py:11
  ⟨t!"aircraft:strut:drag_factor", .input, none, false⟩,  -- subsystems/aerodynamics/gasp_based/gaspaero.py:748
  ⟨t!"aircraft:strut:fuselage_interference_factor", .input, some t!"unitless", false⟩,  -- subsystems/aerodynamics/gasp_based/gaspaero.py:704
  ⟨t!"aircraft:strut:fuselage_interference_factor", .output, some t!"unitless", false⟩,  -- subsystems/aerodynamics/gasp_based/gasp_aero_coeffs.py:39
  ⟨t!"aircraft:strut:length", .output, some t!"ft", false⟩,  -- subsystems/geometry/gasp_based/strut.py:20
  ⟨t!"aircraft:strut:mass", .input, some t!"lbm", false⟩,  -- subsystems/mass/gasp_based/wing.py:365
  ⟨t!"aircraft:strut:mass", .output, some t!"lbm", false⟩,  -- subsystems/mass/gasp_based/wing.py:278
  ⟨t!"aircraft:strut:mass_coefficient", .input, some t!"unitless", false⟩,  -- subsystems/mass/gasp_based/wing.py:271
  ⟨t!"aircraft:strut:thickness_to_chord", .input, some t!"unitless", false⟩,  -- subsystems/aerodynamics/gasp_based/gasp_aero_coeffs.py:25
  ⟨t!"aircraft:tail_boom:length", .input, some t!"ft", false⟩,  -- subsystems/mass/gasp_based/fuel.py:907
  ⟨t!"aircraft:tail_boom:length", .output, some t!"ft", false⟩,  -- subsystems/geometry/gasp_based/fuselage.py:139
  ⟨t!"aircraft:vertical_tail:area", .input, some t!"ft**2", false⟩,  -- subsystems/aerodynamics/gasp_based/gaspaero.py:728
  ⟨t!"aircraft:vertical_tail:aspect_ratio", .input, some t!"unitless", false⟩,  -- subsystems/mass/gasp_based/fixed.py:882
  ⟨t!"aircraft:vertical_tail:average_chord", .input, some t!"ft", false⟩,  -- subsystems/aerodynamics/gasp_based/gaspaero.py:721
  ⟨t!"aircraft:vertical_tail:characteristic_length", .input, some t!"ft", false⟩,  -- subsystems/aerodynamics/flops_based/drag_polar.py:45
  ⟨t!"aircraft:vertical_tail:characteristic_length", .output, some t!"ft", false⟩,  -- subsystems/geometry/flops_based/characteristic_lengths.py:521
  ⟨t!"aircraft:vertical_tail:drag_factor", .input, none, false⟩,  -- subsystems/aerodynamics/gasp_based/gaspaero.py:749
  ⟨t!"aircraft:vertical_tail:fineness", .input, some t!"unitless", false⟩,  -- subsystems/aerodynamics/flops_based/drag_polar.py:36
  ⟨t!"aircraft:vertical_tail:fineness", .output, some t!"unitless", false⟩,  -- subsystems/geometry/flops_based/characteristic_lengths.py:522
  ⟨t!"aircraft:vertical_tail:form_factor", .input, some t!"unitless", false⟩,  -- subsystems/aerodynamics/gasp_based/gaspaero.py:701
  ⟨t!"aircraft:vertical_tail:form_factor", .output, some t!"unitless", false⟩,  -- subsystems/aerodynamics/gasp_based/gasp_aero_coeffs.py:37
  ⟨t!"aircraft:vertical_tail:laminar_flow_lower", .input, some t!"unitless", false⟩,  -- subsystems/aerodynamics/flops_based/mux_component.py:62
  ⟨t!"aircraft:vertical_tail:laminar_flow_upper", .input, some t!"unitless", false⟩,  -- subsystems/aerodynamics/flops_based/mux_component.py:61
  ⟨t!"aircraft:vertical_tail:mass", .input, some t!"lbm", false⟩,  -- subsystems/mass/gasp_based/mass_summation.py:61
  ⟨t!"aircraft:vertical_tail:mass", .output, some t!"lbm", false⟩,  -- subsystems/mass/gasp_based/fixed.py:913
  ⟨t!"aircraft:vertical_tail:mass_coefficient", .input, some t!"unitless", false⟩,  -- subsystems/mass/gasp_based/fixed.py:891
  ⟨t!"aircraft:vertical_tail:mass_scaler", .input, none, false⟩,  -- subsystems/mass/gasp_based/fixed.py:905
  ⟨t!"aircraft:vertical_tail:mass_scaler", .input, some t!"unitless", false⟩,  -- subsystems/mass/flops_based/vertical_tail.py:20
  ⟨t!"aircraft:vertical_tail:moment_arm", .input, some t!"ft", false⟩,  -- subsystems/mass/gasp_based/fixed.py:902
  ⟨t!"aircraft:vertical_tail:num_tails", .option, none, false⟩,  -- subsystems/aerodynamics/flops_based/skin_friction.py:44
  ⟨t!"aircraft:vertical_tail:root_chord", .input, some t!"ft", false⟩,  -- subsystems/mass/gasp_based/fixed.py:904
  ⟨t!"aircraft:vertical_tail:span", .input, some t!"ft", false⟩,  -- subsystems/aerodynamics/gasp_based/gaspaero.py:123
  ⟨t!"aircraft:vertical_tail:sweep", .input, some t!"rad", false⟩,  -- subsystems/aerodynamics/gasp_based/gasp_aero_coeffs.py:27
  ⟨t!"aircraft:vertical_tail:taper_ratio", .input, some t!"unitless", false⟩,  -- subsystems/mass/gasp_based/fixed.py:881
  ⟨t!"aircraft:vertical_tail:thickness_to_chord", .input, some t!"unitless", false⟩,  -- subsystems/aerodynamics/gasp_based/gasp_aero_coeffs.py:23
  ⟨t!"aircraft:vertical_tail:wetted_area", .input, some t!"ft**2", false⟩,  -- subsystems/aerodynamics/flops_based/drag_polar.py:29
  ⟨t!"aircraft:vertical_tail:wetted_area", .output, some t!"ft**2", false⟩,  -- subsystems/geometry/flops_based/wetted_area_total.py:671
  ⟨t!"aircraft:vertical_tail:wetted_area_scaler", .input, some t!"unitless", false⟩,  -- subsystems/geometry/flops_based/wetted_area_total.py:668
  ⟨t!"aircraft:wing:aeroelastic_tailoring_factor", .input, some t!"unitless", false⟩,  -- subsystems/mass/flops_based/wing_detailed.py:97
  ⟨t!"aircraft:wing:airfoil_technology", .option, none, false⟩,  -- subsystems/aerodynamics/flops_based/premission_aero.py:29
  ⟨t!"aircraft:wing:area", .input, none, false⟩,  -- mission/energy_state/phases/simplified_takeoff.py:99
  ⟨t!"aircraft:wing:area", .input, some t!"ft**2", false⟩,  -- mission/energy_state/phases/simplified_landing.py:18
  ⟨t!"aircraft:wing:area", .input, some t!"m**2", false⟩,  -- mission/energy_state/phases/simplified_takeoff.py:21
  ⟨t!"aircraft:wing:area", .output, some t!"ft**2", false⟩]  -- subsystems/geometry/gasp_based/wing.py:24

/-- First row: aviary/subsystems/aerodynamics/gasp_based/gaspaero.py:295. -/
def calls5 : List Call := [
  ⟨t!"aircraft:wing:aspect_ratio", .input, some t!"unitless", false⟩,  -- subsystems/aerodynamics/gasp_based/gaspaero.py:295
  ⟨t!"aircraft:wing:aspect_ratio", .output, some t!"unitless", false⟩,  -- subsystems/geometry/flops_based/wing_detailed_bwb.py:421
  ⟨t!"aircraft:wing:aspect_ratio_reference", .input, some t!"unitless", false⟩,  -- subsystems/mass/flops_based/wing_detailed.py:95
  ⟨t!"aircraft:wing:aspect_ratio_reference", .output, some t!"unitless", false⟩,  -- subsystems/geometry/flops_based/wing_detailed_bwb.py:422
  ⟨t!"aircraft:wing:average_chord", .input, none, false⟩,  -- subsystems/aerodynamics/gasp_based/interference.py:359
  ⟨t!"aircraft:wing:average_chord", .input, some t!"ft", false⟩,  -- subsystems/aerodynamics/gasp_based/gaspaero.py:111
  ⟨t!"aircraft:wing:average_chord", .output, some t!"ft", false⟩,  -- subsystems/geometry/gasp_based/wing.py:87
  ⟨t!"aircraft:wing:bending_material_factor", .input, some t!"unitless", false⟩,  -- subsystems/mass/flops_based/wing_common.py:21
  ⟨t!"aircraft:wing:bending_material_factor", .output, some t!"unitless", false⟩,  -- subsystems/mass/flops_based/wing_detailed.py:112
  ⟨t!"aircraft:wing:bending_material_mass", .input, some t!"lbm", false⟩,  -- subsystems/mass/flops_based/wing_common.py:429
  ⟨t!"aircraft:wing:bending_material_mass", .output, some t!"lbm", false⟩,  -- subsystems/mass/flops_based/wing_common.py:35
  ⟨t!"aircraft:wing:bending_material_mass_scaler", .input, some t!"unitless", false⟩,  -- subsystems/mass/flops_based/wing_common.py:22
  ⟨t!"aircraft:wing:bwb_aftbody_mass", .input, some t!"lbm", false⟩,  -- subsystems/mass/flops_based/wing_common.py:432
  ⟨t!"aircraft:wing:bwb_aftbody_mass", .output, some t!"lbm", false⟩,  -- subsystems/mass/flops_based/fuselage.py:216
  ⟨t!"aircraft:wing:center_chord", .input, some t!"ft", false⟩,  -- subsystems/aerodynamics/gasp_based/flaps_model/basic_calculations.py:21
  ⟨t!"aircraft:wing:center_chord", .output, some t!"ft", false⟩,  -- subsystems/geometry/gasp_based/wing.py:86
  ⟨t!"aircraft:wing:center_distance", .input, none, false⟩,  -- subsystems/aerodynamics/gasp_based/interference.py:215
  ⟨t!"aircraft:wing:characteristic_length", .input, some t!"ft", false⟩,  -- subsystems/aerodynamics/flops_based/drag_polar.py:46
  ⟨t!"aircraft:wing:characteristic_length", .output, some t!"ft", false⟩,  -- subsystems/geometry/flops_based/characteristic_lengths.py:27
  ⟨t!"aircraft:wing:choose_fold_location", .option, none, false⟩,  -- subsystems/geometry/gasp_based/wing.py:875
  ⟨t!"aircraft:wing:chord_per_semispan_distribution", .input, some t!"unitless", true⟩,  -- subsystems/mass/flops_based/wing_detailed.py:86
  ⟨t!"aircraft:wing:composite_fraction", .input, some t!"unitless", false⟩,  -- subsystems/mass/flops_based/fuselage.py:211
  ⟨t!"aircraft:wing:control_surface_area", .input, some t!"ft**2", false⟩,  -- subsystems/mass/flops_based/wing_common.py:235
  ⟨t!"aircraft:wing:control_surface_area", .output, some t!"ft**2", false⟩,  -- subsystems/mass/flops_based/surface_controls.py:24
  ⟨t!"aircraft:wing:control_surface_area_ratio", .input, some t!"unitless", false⟩,  -- subsystems/mass/flops_based/surface_controls.py:20
  ⟨t!"aircraft:wing:detailed_wing", .option, none, false⟩,  -- subsystems/mass/flops_based/wing_group.py:29
  ⟨t!"aircraft:wing:dihedral", .input, some t!"deg", false⟩,  -- subsystems/geometry/flops_based/landing_gear.py:68
  ⟨t!"aircraft:wing:drag_factor", .input, none, false⟩,  -- subsystems/aerodynamics/gasp_based/gaspaero.py:750
  ⟨t!"aircraft:wing:eng_pod_inertia_factor", .input, some t!"unitless", false⟩,  -- subsystems/mass/flops_based/wing_common.py:24
  ⟨t!"aircraft:wing:eng_pod_inertia_factor", .output, some t!"unitless", false⟩,  -- subsystems/mass/flops_based/wing_detailed.py:113
  ⟨t!"aircraft:wing:exposed_area", .input, some t!"ft**2", false⟩,  -- subsystems/aerodynamics/gasp_based/gaspaero.py:1770
  ⟨t!"aircraft:wing:exposed_area", .output, some t!"ft**2", false⟩,  -- subsystems/geometry/gasp_based/wing.py:1788
  ⟨t!"aircraft:wing:fineness", .input, some t!"unitless", false⟩,  -- subsystems/aerodynamics/flops_based/drag_polar.py:37
  ⟨t!"aircraft:wing:fineness", .output, some t!"unitless", false⟩,  -- subsystems/geometry/flops_based/characteristic_lengths.py:28
  ⟨t!"aircraft:wing:flap_chord_ratio", .input, some t!"unitless", false⟩,  -- subsystems/aerodynamics/gasp_based/gaspaero.py:1214
  ⟨t!"aircraft:wing:flap_drag_increment_optimum", .input, some t!"unitless", false⟩,  -- subsystems/aerodynamics/gasp_based/flaps_model/L_and_D_increments.py:31
  ⟨t!"aircraft:wing:flap_lift_increment_optimum", .input, some t!"unitless", false⟩,  -- subsystems/aerodynamics/gasp_based/flaps_model/Cl_max.py:23
  ⟨t!"aircraft:wing:flap_span_ratio", .input, some t!"unitless", false⟩,  -- subsystems/mass/gasp_based/fixed.py:1371
  ⟨t!"aircraft:wing:flap_type", .option, none, false⟩,  -- subsystems/aerodynamics/gasp_based/flaps_model/flaps_model.py:24
  ⟨t!"aircraft:wing:fold_dimensional_location_specified", .option, none, false⟩,  -- subsystems/geometry/gasp_based/non_dimensional_conversion.py:73
  ⟨t!"aircraft:wing:fold_mass", .input, some t!"lbm", false⟩,  -- subsystems/mass/gasp_based/wing.py:366
  ⟨t!"aircraft:wing:fold_mass", .output, some t!"lbm", false⟩,  -- subsystems/mass/gasp_based/wing.py:279
  ⟨t!"aircraft:wing:fold_mass_coefficient", .input, some t!"unitless", false⟩,  -- subsystems/mass/gasp_based/wing.py:276
  ⟨t!"aircraft:wing:folded_span", .input, none, false⟩,  -- subsystems/geometry/gasp_based/wing.py:1005
  ⟨t!"aircraft:wing:folded_span", .input, some t!"ft", false⟩,  -- subsystems/geometry/gasp_based/wing.py:883
  ⟨t!"aircraft:wing:folded_span", .output, some t!"ft", false⟩,  -- subsystems/geometry/gasp_based/non_dimensional_conversion.py:83
  ⟨t!"aircraft:wing:folded_span_dimensionless", .input, some t!"unitless", false⟩,  -- subsystems/geometry/gasp_based/non_dimensional_conversion.py:82
  ⟨t!"aircraft:wing:folded_span_dimensionless", .output, some t!"unitless", false⟩,  -- subsystems/geometry/gasp_based/non_dimensional_conversion.py:80
  ⟨t!"aircraft:wing:folding_area", .input, some t!"ft**2", false⟩,  -- subsystems/mass/gasp_based/wing.py:275
  ⟨t!"aircraft:wing:folding_area", .output, some t!"ft**2", false⟩,  -- subsystems/geometry/gasp_based/wing.py:889
  ⟨t!"aircraft:wing:form_factor", .input, none, false⟩,  -- subsystems/aerodynamics/gasp_based/interference.py:358
  ⟨t!"aircraft:wing:form_factor", .input, some t!"unitless", false⟩,  -- subsystems/aerodynamics/gasp_based/gaspaero.py:690
  ⟨t!"aircraft:wing:form_factor", .output, some t!"unitless", false⟩,  -- subsystems/aerodynamics/gasp_based/gasp_aero_coeffs.py:36
  ⟨t!"aircraft:wing:fuselage_interference_factor", .input, some t!"unitless", false⟩,  -- subsystems/aerodynamics/gasp_based/gaspaero.py:703
  ⟨t!"aircraft:wing:glove_and_bat", .input, some t!"ft**2", false⟩,  -- subsystems/geometry/flops_based/characteristic_lengths.py:23
  ⟨t!"aircraft:wing:has_fold", .option, none, false⟩,  -- subsystems/mass/gasp_based/wing.py:260
  ⟨t!"aircraft:wing:has_strut", .option, none, false⟩,  -- subsystems/aerodynamics/gasp_based/gaspaero.py:673
  ⟨t!"aircraft:wing:height", .input, some t!"ft", false⟩,  -- subsystems/aerodynamics/gasp_based/gaspaero.py:1210
  ⟨t!"aircraft:wing:height", .input, some t!"m", false⟩,  -- subsystems/aerodynamics/flops_based/ground_effect.py:69
  ⟨t!"aircraft:wing:high_lift_mass", .input, some t!"lbm", false⟩,  -- subsystems/mass/gasp_based/wing.py:22
  ⟨t!"aircraft:wing:high_lift_mass", .output, some t!"lbm", false⟩,  -- subsystems/mass/gasp_based/fixed.py:1379
  ⟨t!"aircraft:wing:high_lift_mass_coefficient", .input, some t!"unitless", false⟩,  -- subsystems/mass/gasp_based/fixed.py:1365
  ⟨t!"aircraft:wing:incidence", .input, none, false⟩,  -- mission/solved_two_dof/ode/groundroll_eom.py:46
  ⟨t!"aircraft:wing:incidence", .input, some t!"deg", false⟩,  -- mission/two_dof/ode/takeoff_eom.py:71
  ⟨t!"aircraft:wing:incidence", .input, some t!"rad", false⟩,  -- mission/solved_two_dof/ode/unsteady_solved_eom.py:52
  ⟨t!"aircraft:wing:input_station_distribution", .option, none, false⟩,  -- subsystems/mass/flops_based/wing_detailed.py:64
  ⟨t!"aircraft:wing:laminar_flow_lower", .input, some t!"unitless", false⟩,  -- subsystems/aerodynamics/flops_based/mux_component.py:40
  ⟨t!"aircraft:wing:laminar_flow_upper", .input, some t!"unitless", false⟩,  -- subsystems/aerodynamics/flops_based/mux_component.py:39
  ⟨t!"aircraft:wing:leading_edge_sweep", .input, some t!"rad", false⟩,  -- subsystems/aerodynamics/gasp_based/flaps_model/basic_calculations.py:29
  ⟨t!"aircraft:wing:leading_edge_sweep", .output, some t!"rad", false⟩,  -- subsystems/geometry/gasp_based/wing.py:90
  ⟨t!"aircraft:wing:load_distribution_control", .option, none, false⟩,  -- subsystems/mass/flops_based/wing_detailed.py:65
  ⟨t!"aircraft:wing:load_fraction", .input, some t!"unitless", false⟩,  -- subsystems/mass/flops_based/wing_common.py:25
  ⟨t!"aircraft:wing:load_fraction", .output, some t!"unitless", false⟩,  -- subsystems/geometry/flops_based/wing_detailed_bwb.py:423
  ⟨t!"aircraft:wing:load_path_sweep_distribution", .input, some t!"deg", true⟩,  -- subsystems/mass/flops_based/wing_detailed.py:74
  ⟨t!"aircraft:wing:loading_above_20", .option, none, false⟩,  -- subsystems/mass/gasp_based/design_load.py:25
  ⟨t!"aircraft:wing:mass", .input, some t!"lbm", false⟩,  -- subsystems/mass/gasp_based/mass_summation.py:81
  ⟨t!"aircraft:wing:mass", .output, some t!"lbm", false⟩,  -- subsystems/mass/gasp_based/wing.py:368
  ⟨t!"aircraft:wing:mass_coefficient", .input, some t!"unitless", false⟩,  -- subsystems/mass/gasp_based/wing.py:29
  ⟨t!"aircraft:wing:mass_scaler", .input, none, false⟩,  -- subsystems/mass/gasp_based/wing.py:356
  ⟨t!"aircraft:wing:mass_scaler", .input, some t!"unitless", false⟩,  -- subsystems/mass/flops_based/wing_common.py:433
  ⟨t!"aircraft:wing:material_factor", .input, some t!"unitless", false⟩,  -- subsystems/mass/gasp_based/wing.py:30
  ⟨t!"aircraft:wing:material_factor", .output, some t!"unitless", false⟩,  -- subsystems/mass/gasp_based/fixed.py:44
  ⟨t!"aircraft:wing:max_camber_at_70_semispan", .input, some t!"unitless", false⟩,  -- subsystems/aerodynamics/flops_based/lift_dependent_drag.py:34
  ⟨t!"aircraft:wing:max_lift_ref", .input, some t!"unitless", false⟩,  -- subsystems/aerodynamics/gasp_based/flaps_model/Cl_max.py:91
  ⟨t!"aircraft:wing:max_thickness_location", .input, some t!"unitless", false⟩,  -- subsystems/aerodynamics/gasp_based/gaspaero.py:710
  ⟨t!"aircraft:wing:min_pressure_location", .input, some t!"unitless", false⟩,  -- subsystems/aerodynamics/gasp_based/gaspaero.py:709
  ⟨t!"aircraft:wing:misc_mass", .input, some t!"lbm", false⟩,  -- subsystems/mass/flops_based/wing_common.py:26
  ⟨t!"aircraft:wing:misc_mass", .output, some t!"lbm", false⟩,  -- subsystems/mass/flops_based/wing_common.py:317
  ⟨t!"aircraft:wing:misc_mass_scaler", .input, some t!"unitless", false⟩,  -- subsystems/mass/flops_based/wing_common.py:27
  ⟨t!"aircraft:wing:num_flap_segments", .option, none, false⟩,  -- subsystems/mass/gasp_based/fixed.py:1361
  ⟨t!"aircraft:wing:num_integration_stations", .option, none, false⟩,  -- subsystems/mass/flops_based/wing_detailed.py:66
  ⟨t!"aircraft:wing:optimum_flap_deflection", .input, some t!"deg", false⟩,  -- subsystems/aerodynamics/gasp_based/flaps_model/basic_calculations.py:26
  ⟨t!"aircraft:wing:optimum_slat_deflection", .input, some t!"deg", false⟩,  -- subsystems/aerodynamics/gasp_based/flaps_model/basic_calculations.py:200
  ⟨t!"aircraft:wing:outboard_semispan", .input, some t!"ft", false⟩,  -- subsystems/geometry/flops_based/wing_detailed_bwb.py:48
  ⟨t!"aircraft:wing:root_chord", .input, some t!"ft", false⟩,  -- subsystems/aerodynamics/gasp_based/flaps_model/basic_calculations.py:27
  ⟨t!"aircraft:wing:root_chord", .output, some t!"ft", false⟩,  -- subsystems/geometry/gasp_based/wing.py:88
  ⟨t!"aircraft:wing:shear_control_mass", .input, some t!"lbm", false⟩,  -- subsystems/mass/flops_based/wing_common.py:28
  ⟨t!"aircraft:wing:shear_control_mass", .output, some t!"lbm", false⟩,  -- subsystems/mass/flops_based/wing_common.py:239
  ⟨t!"aircraft:wing:shear_control_mass_scaler", .input, some t!"unitless", false⟩,  -- subsystems/mass/flops_based/wing_common.py:29
  ⟨t!"aircraft:wing:slat_chord_ratio", .input, some t!"unitless", false⟩]  -- subsystems/aerodynamics/gasp_based/flaps_model/basic_calculations.py:25

/-- First row: aviary/subsystems/aerodynamics/gasp_based/flaps_model/Cl_max.py:92. -/
def calls6 : List Call := [
  ⟨t!"aircraft:wing:slat_lift_increment_optimum", .input, some t!"unitless", false⟩,  -- subsystems/aerodynamics/gasp_based/flaps_model/Cl_max.py:92
  ⟨t!"aircraft:wing:slat_span_ratio", .input, some t!"unitless", false⟩,  -- subsystems/mass/gasp_based/fixed.py:1370
  ⟨t!"aircraft:wing:slat_span_ratio", .output, some t!"unitless", false⟩,  -- subsystems/aerodynamics/gasp_based/flaps_model/basic_calculations.py:57
  ⟨t!"aircraft:wing:span", .input, none, false⟩,  -- subsystems/aerodynamics/gasp_based/interference.py:20
  ⟨t!"aircraft:wing:span", .input, some t!"ft", false⟩,  -- subsystems/aerodynamics/gasp_based/gaspaero.py:109
  ⟨t!"aircraft:wing:span", .input, some t!"m", false⟩,  -- subsystems/aerodynamics/flops_based/ground_effect.py:70
  ⟨t!"aircraft:wing:span", .output, some t!"ft", false⟩,  -- subsystems/geometry/gasp_based/wing.py:25
  ⟨t!"aircraft:wing:span_efficiency_factor", .input, some t!"unitless", false⟩,  -- subsystems/aerodynamics/flops_based/induced_drag.py:31
  ⟨t!"aircraft:wing:span_efficiency_reduction", .option, none, false⟩,  -- subsystems/aerodynamics/flops_based/induced_drag.py:18
  ⟨t!"aircraft:wing:strut_bracing_factor", .input, some t!"unitless", false⟩,  -- subsystems/mass/flops_based/wing_detailed.py:96
  ⟨t!"aircraft:wing:surface_control_mass", .input, none, false⟩,  -- subsystems/mass/flops_based/mass_summation.py:180
  ⟨t!"aircraft:wing:surface_control_mass", .input, some t!"lbm", false⟩,  -- subsystems/mass/gasp_based/control.py:283
  ⟨t!"aircraft:wing:surface_control_mass", .output, some t!"lbm", false⟩,  -- subsystems/mass/gasp_based/control.py:129
  ⟨t!"aircraft:wing:surface_control_mass_coefficient", .input, some t!"unitless", false⟩,  -- subsystems/mass/gasp_based/control.py:15
  ⟨t!"aircraft:wing:surface_control_mass_scaler", .input, some t!"unitless", false⟩,  -- subsystems/mass/gasp_based/control.py:24
  ⟨t!"aircraft:wing:sweep", .input, some t!"deg", false⟩,  -- subsystems/aerodynamics/gasp_based/gaspaero.py:297
  ⟨t!"aircraft:wing:sweep", .input, some t!"rad", false⟩,  -- subsystems/aerodynamics/gasp_based/gasp_aero_coeffs.py:26
  ⟨t!"aircraft:wing:taper_ratio", .input, none, false⟩,  -- subsystems/aerodynamics/gasp_based/interference.py:21
  ⟨t!"aircraft:wing:taper_ratio", .input, some t!"unitless", false⟩,  -- subsystems/aerodynamics/gasp_based/gaspaero.py:113
  ⟨t!"aircraft:wing:thickness_to_chord", .input, some t!"unitless", false⟩,  -- subsystems/aerodynamics/flops_based/lift_dependent_drag.py:36
  ⟨t!"aircraft:wing:thickness_to_chord_distribution", .input, some t!"unitless", true⟩,  -- subsystems/mass/flops_based/wing_detailed.py:80
  ⟨t!"aircraft:wing:thickness_to_chord_reference", .input, some t!"unitless", false⟩,  -- subsystems/mass/flops_based/wing_detailed.py:110
  ⟨t!"aircraft:wing:thickness_to_chord_root", .input, none, false⟩,  -- subsystems/aerodynamics/gasp_based/interference.py:58
  ⟨t!"aircraft:wing:thickness_to_chord_root", .input, some t!"unitless", false⟩,  -- subsystems/aerodynamics/gasp_based/gaspaero.py:115
  ⟨t!"aircraft:wing:thickness_to_chord_tip", .input, none, false⟩,  -- subsystems/aerodynamics/gasp_based/interference.py:157
  ⟨t!"aircraft:wing:thickness_to_chord_tip", .input, some t!"unitless", false⟩,  -- subsystems/geometry/gasp_based/wing.py:84
  ⟨t!"aircraft:wing:thickness_to_chord_unweighted", .input, some t!"unitless", false⟩,  -- subsystems/aerodynamics/gasp_based/gaspaero.py:729
  ⟨t!"aircraft:wing:thickness_to_chord_unweighted", .output, some t!"unitless", false⟩,  -- subsystems/geometry/gasp_based/wing.py:89
  ⟨t!"aircraft:wing:ultimate_load_factor", .input, some t!"unitless", false⟩,  -- subsystems/mass/gasp_based/fuel.py:917
  ⟨t!"aircraft:wing:ultimate_load_factor", .output, some t!"unitless", false⟩,  -- subsystems/mass/gasp_based/design_load.py:683
  ⟨t!"aircraft:wing:var_sweep_mass_penalty", .input, some t!"unitless", false⟩,  -- subsystems/mass/flops_based/wing_common.py:33
  ⟨t!"aircraft:wing:vertical_mount_location", .input, none, false⟩,  -- subsystems/aerodynamics/gasp_based/interference.py:57
  ⟨t!"aircraft:wing:vertical_mount_location", .input, some t!"unitless", false⟩,  -- subsystems/aerodynamics/gasp_based/gaspaero.py:117
  ⟨t!"aircraft:wing:wetted_area", .input, some t!"ft**2", false⟩,  -- subsystems/aerodynamics/flops_based/drag_polar.py:30
  ⟨t!"aircraft:wing:wetted_area", .output, some t!"ft**2", false⟩,  -- subsystems/geometry/flops_based/wetted_area_total.py:494
  ⟨t!"aircraft:wing:wetted_area_scaler", .input, some t!"unitless", false⟩,  -- subsystems/geometry/flops_based/wetted_area_total.py:492
  ⟨t!"aircraft:wing:zero_lift_angle", .input, some t!"deg", false⟩,  -- subsystems/aerodynamics/gasp_based/gaspaero.py:1458
  ⟨t!"density", .input, some t!"kg/m**3", false⟩,  -- mission/energy_state/phases/simplified_takeoff.py:19
  ⟨t!"density", .input, some t!"kg/m**3", true⟩,  -- mission/energy_state/ode/takeoff_eom.py:26
  ⟨t!"density", .input, some t!"slug/ft**3", false⟩,  -- mission/energy_state/phases/simplified_landing.py:17
  ⟨t!"density", .input, some t!"slug/ft**3", true⟩,  -- mission/two_dof/ode/constraints/flight_constraints.py:35
  ⟨t!"dynamic_pressure", .input, some t!"N/m**2", true⟩,  -- subsystems/aerodynamics/flops_based/drag.py:109
  ⟨t!"dynamic_pressure", .input, some t!"psf", true⟩,  -- subsystems/aerodynamics/gasp_based/common.py:20
  ⟨t!"dynamic_pressure", .output, some t!"N/m**2", true⟩,  -- mission/solved_two_dof/ode/unsteady_solved_flight_conditions.py:82
  ⟨t!"dynamic_pressure", .output, some t!"lbf/ft**2", true⟩,  -- subsystems/aerodynamics/aero_common.py:26
  ⟨t!"kinematic_viscosity", .input, none, false⟩,  -- subsystems/aerodynamics/gasp_based/flaps_model/Cl_max.py:123
  ⟨t!"kinematic_viscosity", .input, none, true⟩,  -- subsystems/aerodynamics/gasp_based/interference.py:362
  ⟨t!"kinematic_viscosity", .input, some t!"ft**2/s", true⟩,  -- subsystems/aerodynamics/gasp_based/gaspaero.py:681
  ⟨t!"mach", .input, none, true⟩,  -- subsystems/aerodynamics/gasp_based/interference.py:360
  ⟨t!"mach", .input, some t!"unitless", true⟩,  -- mission/solved_two_dof/ode/unsteady_solved_flight_conditions.py:166
  ⟨t!"mach", .output, some t!"unitless", true⟩,  -- mission/solved_two_dof/ode/unsteady_solved_flight_conditions.py:125
  ⟨t!"speed_of_sound", .input, some t!"ft/s", false⟩,  -- subsystems/aerodynamics/gasp_based/flaps_model/Cl_max.py:20
  ⟨t!"speed_of_sound", .input, some t!"ft/s", true⟩,  -- subsystems/aerodynamics/gasp_based/gaspaero.py:680
  ⟨t!"speed_of_sound", .input, some t!"m/s", true⟩,  -- mission/solved_two_dof/ode/unsteady_solved_flight_conditions.py:75
  ⟨t!"static_pressure", .input, some t!"lbf/ft**2", false⟩,  -- subsystems/aerodynamics/gasp_based/flaps_model/Cl_max.py:83
  ⟨t!"static_pressure", .input, some t!"lbf/ft**2", true⟩,  -- subsystems/aerodynamics/aero_common.py:22
  ⟨t!"static_pressure", .input, some t!"psf", true⟩,  -- utils/engine_deck_conversion.py:728
  ⟨t!"temperature", .input, none, true⟩,  -- subsystems/aerodynamics/gasp_based/interference.py:361
  ⟨t!"temperature", .input, some t!"degR", false⟩,  -- subsystems/aerodynamics/gasp_based/flaps_model/Cl_max.py:127
  ⟨t!"temperature", .input, some t!"degR", true⟩,  -- utils/engine_deck_conversion.py:722
  ⟨t!"altitude", .input, some t!"ft", true⟩,  -- subsystems/aerodynamics/gasp_based/gaspaero.py:1201
  ⟨t!"altitude", .input, some t!"m", true⟩,  -- subsystems/aerodynamics/flops_based/ground_effect.py:46
  ⟨t!"altitude_rate", .input, some t!"m/s", true⟩,  -- mission/energy_state/ode/takeoff_eom.py:391
  ⟨t!"altitude_rate", .output, some t!"ft/s", true⟩,  -- mission/solved_two_dof/ode/groundroll_eom.py:62
  ⟨t!"altitude_rate", .output, some t!"m/s", true⟩,  -- mission/energy_state/ode/takeoff_eom.py:206
  ⟨t!"distance", .output, some t!"NM", true⟩,  -- mission/two_dof/ode/simple_cruise_eom.py:37
  ⟨t!"distance_rate", .input, some t!"m/s", true⟩,  -- mission/energy_state/ode/takeoff_eom.py:390
  ⟨t!"distance_rate", .output, some t!"ft/s", true⟩,  -- mission/solved_two_dof/ode/groundroll_eom.py:63
  ⟨t!"distance_rate", .output, some t!"m/s", true⟩,  -- mission/energy_state/ode/takeoff_eom.py:205
  ⟨t!"flight_path_angle", .input, some t!"rad", false⟩,  -- mission/two_dof/ode/constraints/flight_constraints.py:193
  ⟨t!"flight_path_angle", .input, some t!"rad", true⟩,  -- mission/energy_state/ode/takeoff_eom.py:202
  ⟨t!"flight_path_angle", .output, some t!"rad", true⟩,  -- mission/solved_two_dof/ode/gamma_comp.py:31
  ⟨t!"flight_path_angle_rate", .output, some t!"rad/s", true⟩,  -- mission/energy_state/ode/takeoff_eom.py:458
  ⟨t!"specific_energy_rate", .input, some t!"m/s", true⟩,  -- mission/ode/altitude_rate.py:21
  ⟨t!"specific_energy_rate", .output, some t!"m/s", true⟩,  -- mission/ode/specific_energy_rate.py:38
  ⟨t!"velocity", .input, some t!"ft/s", false⟩,  -- mission/two_dof/ode/constraints/flight_constraints.py:192
  ⟨t!"velocity", .input, some t!"ft/s", true⟩,  -- mission/solved_two_dof/ode/groundroll_eom.py:39
  ⟨t!"velocity", .input, some t!"m/s", true⟩,  -- mission/energy_state/ode/takeoff_eom.py:203
  ⟨t!"velocity", .output, some t!"m/s", true⟩,  -- mission/solved_two_dof/ode/unsteady_solved_flight_conditions.py:152
  ⟨t!"velocity_rate", .input, some t!"m/s**2", true⟩,  -- mission/energy_state/ode/required_thrust.py:35
  ⟨t!"velocity_rate", .output, some t!"ft/s**2", true⟩,  -- mission/solved_two_dof/ode/groundroll_eom.py:50
  ⟨t!"velocity_rate", .output, some t!"m/s**2", true⟩,  -- mission/energy_state/ode/takeoff_eom.py:393
  ⟨t!"angle_of_attack", .input, some t!"deg", true⟩,  -- mission/solved_two_dof/ode/groundroll_eom.py:47
  ⟨t!"angle_of_attack", .input, some t!"rad", true⟩,  -- mission/energy_state/ode/takeoff_eom.py:537
  ⟨t!"angle_of_attack", .output, some t!"deg", true⟩,  -- subsystems/aerodynamics/gasp_based/gaspaero.py:2064
  ⟨t!"cumulative_electric_energy_used", .input, some t!"kW*h", true⟩,  -- mission/two_dof/ode/breguet_cruise_eom.py:272
  ⟨t!"drag", .input, some t!"N", true⟩,  -- mission/energy_state/ode/takeoff_eom.py:535
  ⟨t!"drag", .input, some t!"lbf", true⟩,  -- mission/solved_two_dof/ode/groundroll_eom.py:33
  ⟨t!"drag", .output, some t!"N", true⟩,  -- subsystems/aerodynamics/flops_based/drag.py:112
  ⟨t!"drag", .output, some t!"lbf", true⟩,  -- subsystems/aerodynamics/gasp_based/common.py:25
  ⟨t!"drag_coefficient", .input, some t!"unitless", true⟩,  -- subsystems/aerodynamics/gasp_based/common.py:18
  ⟨t!"drag_coefficient", .output, some t!"unitless", true⟩,  -- models/external_subsystems/simple_aero/simple_drag.py:26
  ⟨t!"lift", .input, some t!"N", true⟩,  -- mission/energy_state/ode/takeoff_eom.py:533
  ⟨t!"lift", .input, some t!"lbf", true⟩,  -- mission/solved_two_dof/ode/groundroll_eom.py:27
  ⟨t!"lift", .output, some t!"N", true⟩,  -- subsystems/aerodynamics/flops_based/lift.py:24
  ⟨t!"lift", .output, some t!"lbf", true⟩,  -- subsystems/aerodynamics/gasp_based/common.py:24
  ⟨t!"lift_coefficient", .input, some t!"unitless", true⟩,  -- models/external_subsystems/simple_aero/simple_drag.py:25
  ⟨t!"lift_coefficient", .output, some t!"unitless", true⟩,  -- subsystems/aerodynamics/gasp_based/gaspaero.py:1594
  ⟨t!"mass", .input, some t!"kg", true⟩,  -- mission/energy_state/ode/takeoff_eom.py:24
  ⟨t!"mass", .input, some t!"lbm", false⟩]  -- mission/two_dof/ode/landing_eom.py:41

/-- First row: aviary/mission/solved_two_dof/ode/groundroll_eom.py:20. -/
def calls7 : List Call := [
  ⟨t!"mass", .input, some t!"lbm", true⟩,  -- mission/solved_two_dof/ode/groundroll_eom.py:20
  ⟨t!"mass", .output, some t!"lbm", false⟩,  -- mission/two_dof/ode/taxi_eom.py:27
  ⟨t!"electric_power_in_total", .input, some t!"kW", true⟩,  -- mission/two_dof/ode/breguet_cruise_eom.py:278
  ⟨t!"fuel_flow_rate_negative", .output, none, true⟩,  -- subsystems/propulsion/engine_scaling.py:76
  ⟨t!"fuel_flow_rate_negative_total", .input, some t!"lbm/h", true⟩,  -- mission/two_dof/ode/breguet_cruise_eom.py:36
  ⟨t!"fuel_flow_rate_negative_total", .input, some t!"lbm/s", false⟩,  -- mission/two_dof/ode/taxi_eom.py:14
  ⟨t!"propeller_tip_speed", .input, some t!"ft/s", true⟩,  -- subsystems/propulsion/propeller/hamilton_standard.py:470
  ⟨t!"propeller_tip_speed", .output, some t!"ft/s", true⟩,  -- subsystems/propulsion/propeller/propeller_performance.py:51
  ⟨t!"rotations_per_minute", .input, some t!"rpm", true⟩,  -- subsystems/propulsion/propeller/propeller_performance.py:45
  ⟨t!"shaft_power", .input, some t!"hp", true⟩,  -- subsystems/propulsion/propeller/hamilton_standard.py:476
  ⟨t!"thrust_net", .output, some t!"lbf", true⟩,  -- subsystems/propulsion/propeller/hamilton_standard.py:968
  ⟨t!"thrust_net_total", .input, some t!"N", true⟩,  -- mission/energy_state/ode/takeoff_eom.py:534
  ⟨t!"thrust_net_total", .input, some t!"lbf", true⟩,  -- mission/solved_two_dof/ode/groundroll_eom.py:21
  ⟨t!"mission:final_mass", .input, some t!"lbm", false⟩,  -- mission/energy_state/phases/simplified_landing.py:16
  ⟨t!"mission:gravity", .option, some t!"ft/s**2", false⟩,  -- mission/solved_two_dof/ode/groundroll_eom.py:15
  ⟨t!"mission:gravity", .option, some t!"m/s**2", false⟩,  -- mission/energy_state/ode/takeoff_eom.py:19
  ⟨t!"mission:gross_mass", .input, none, false⟩,  -- mission/two_dof/ode/taxi_eom.py:19
  ⟨t!"mission:operating_items_mass", .input, some t!"lbm", false⟩,  -- subsystems/mass/gasp_based/mass_summation.py:241
  ⟨t!"mission:operating_items_mass", .output, some t!"lbm", false⟩,  -- subsystems/mass/gasp_based/mass_summation.py:211
  ⟨t!"mission:operating_items_mass_additional", .input, some t!"lbm", false⟩,  -- subsystems/mass/gasp_based/mass_summation.py:209
  ⟨t!"mission:operating_mass", .input, some t!"lbm", false⟩,  -- subsystems/mass/gasp_based/mass_summation.py:258
  ⟨t!"mission:operating_mass", .output, some t!"lbm", false⟩,  -- subsystems/mass/gasp_based/mass_summation.py:243
  ⟨t!"mission:reserve_fuel_margin", .option, none, false⟩,  -- subsystems/energy/fuel_summation.py:19
  ⟨t!"mission:reserve_fuel_mass_additional", .option, some t!"lbm", false⟩,  -- subsystems/energy/fuel_summation.py:20
  ⟨t!"mission:sea_level_density", .option, some t!"kg/m**3", false⟩,  -- mission/energy_state/phases/simplified_takeoff.py:74
  ⟨t!"mission:sea_level_density", .option, some t!"slug/ft**3", false⟩,  -- mission/energy_state/phases/simplified_landing.py:13
  ⟨t!"mission:zero_fuel_mass", .output, some t!"lbm", false⟩,  -- subsystems/mass/gasp_based/mass_summation.py:260
  ⟨t!"mission:constraints:max_mach", .option, none, false⟩,  -- subsystems/aerodynamics/flops_based/premission_aero.py:30
  ⟨t!"mission:landing:airport_altitude", .input, none, false⟩,  -- mission/two_dof/ode/landing_eom.py:14
  ⟨t!"mission:landing:braking_delay", .input, none, false⟩,  -- mission/two_dof/ode/landing_eom.py:51
  ⟨t!"mission:landing:braking_friction_coefficient", .input, some t!"unitless", false⟩,  -- mission/two_dof/ode/landing_eom.py:587
  ⟨t!"mission:landing:glide_to_stall_ratio", .input, none, false⟩,  -- mission/two_dof/ode/landing_eom.py:43
  ⟨t!"mission:landing:ground_distance", .output, none, false⟩,  -- mission/two_dof/ode/landing_eom.py:599
  ⟨t!"mission:landing:ground_distance", .output, some t!"ft", false⟩,  -- mission/energy_state/phases/simplified_landing.py:21
  ⟨t!"mission:landing:initial_altitude", .input, none, false⟩,  -- mission/two_dof/ode/landing_eom.py:50
  ⟨t!"mission:landing:initial_altitude", .output, none, false⟩,  -- mission/two_dof/ode/landing_eom.py:16
  ⟨t!"mission:landing:initial_velocity", .output, none, false⟩,  -- mission/two_dof/ode/landing_eom.py:53
  ⟨t!"mission:landing:initial_velocity", .output, some t!"ft/s", false⟩,  -- mission/energy_state/phases/simplified_landing.py:22
  ⟨t!"mission:landing:lift_coefficient_max", .input, some t!"unitless", false⟩,  -- mission/energy_state/phases/simplified_landing.py:19
  ⟨t!"mission:landing:maximum_flare_load_factor", .input, none, false⟩,  -- mission/two_dof/ode/landing_eom.py:48
  ⟨t!"mission:landing:maximum_sink_rate", .input, none, false⟩,  -- mission/two_dof/ode/landing_eom.py:40
  ⟨t!"mission:landing:obstacle_height", .input, none, false⟩,  -- mission/two_dof/ode/landing_eom.py:13
  ⟨t!"mission:landing:stall_velocity", .input, none, false⟩,  -- mission/two_dof/ode/landing_eom.py:548
  ⟨t!"mission:landing:stall_velocity", .output, none, false⟩,  -- mission/two_dof/ode/landing_eom.py:58
  ⟨t!"mission:landing:touchdown_sink_rate", .input, none, false⟩,  -- mission/two_dof/ode/landing_eom.py:49
  ⟨t!"mission:takeoff:angle_of_attack_runway", .option, some t!"rad", false⟩,  -- mission/energy_state/ode/takeoff_eom.py:525
  ⟨t!"mission:takeoff:climbout_thrust_fraction", .input, none, false⟩,  -- mission/energy_state/phases/simplified_takeoff.py:103
  ⟨t!"mission:takeoff:final_altitude", .output, none, false⟩,  -- mission/energy_state/phases/simplified_takeoff.py:108
  ⟨t!"mission:takeoff:final_mass", .output, none, false⟩,  -- mission/energy_state/phases/simplified_takeoff.py:107
  ⟨t!"mission:takeoff:final_velocity", .output, some t!"m/s", false⟩,  -- mission/energy_state/phases/simplified_takeoff.py:106
  ⟨t!"mission:takeoff:fuel_mass", .input, none, false⟩,  -- mission/energy_state/phases/simplified_takeoff.py:91
  ⟨t!"mission:takeoff:ground_distance", .output, none, false⟩,  -- mission/energy_state/phases/simplified_takeoff.py:105
  ⟨t!"mission:takeoff:lift_coefficient_max", .input, none, false⟩,  -- mission/energy_state/phases/simplified_takeoff.py:100
  ⟨t!"mission:takeoff:lift_coefficient_max", .input, some t!"unitless", false⟩,  -- subsystems/aerodynamics/flops_based/premission_aero.py:265
  ⟨t!"mission:takeoff:lift_over_drag", .input, none, false⟩,  -- mission/energy_state/phases/simplified_takeoff.py:102
  ⟨t!"mission:takeoff:lift_over_drag", .output, some t!"unitless", false⟩,  -- subsystems/aerodynamics/flops_based/premission_aero.py:267
  ⟨t!"mission:takeoff:rolling_friction_coefficient", .input, some t!"unitless", false⟩,  -- mission/solved_two_dof/ode/groundroll_eom.py:48
  ⟨t!"mission:takeoff:thrust_incidence", .option, some t!"rad", false⟩,  -- mission/energy_state/ode/takeoff_eom.py:524
  ⟨t!"mission:taxi:duration", .option, some t!"s", false⟩,  -- mission/two_dof/ode/taxi_eom.py:11
  ⟨t!"settings:atmosphere_model", .option, none, false⟩,  -- subsystems/aerodynamics/gasp_based/interference.py:341
  ⟨t!"settings:verbosity", .option, none, false⟩]  -- subsystems/aerodynamics/gasp_based/gaspaero.py:104

/-- All calls, aviary/variable_info/functions.py:22-277. -/
def calls : List Call := calls0 ++ calls1 ++ calls2 ++ calls3 ++ calls4 ++ calls5 ++ calls6 ++ calls7

end Verif.MetaTable
