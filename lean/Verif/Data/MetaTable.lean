import Mathlib.Data.Nat.Notation
import Lean.Elab.Term

/-!
# Metadata of the core variables

Generated from `aviary/variable_info/variables.py` and `aviary/variable_info/variable_meta_data.py`: name, units, type, kind of the
default value, whether several values are allowed and whether the variable is an option, in the order of the calls of
`add_meta_data`.
-/

namespace Verif.MetaTable

/-- A text as the list of its character codes. -/
abbrev Text := List ℕ

/-- `t!"ab"` is the list of the codes of the characters. -/
macro:max "t!" s:str : term => do
  let cs := s.getString.toList.toArray.map (fun c => Lean.Syntax.mkNumLit (toString c.toNat))
  `(([$cs,*] : Text))

/-- Kind of a default value or a declared type.  `any` for a tuple of types. -/
inductive Kind | float | int | bool | str | enum | missing | any
  deriving DecidableEq, Repr

/-- One call of `add_meta_data`; `units` and `ty` are the arguments after the defaults `'unitless'` and `None`; aviary/utils/develop_metadata.py:1-107. -/
structure Row where
  name : Text
  units : Text
  ty : Kind
  dflt : Kind
  multi : Bool
  option : Bool
  deriving DecidableEq, Repr

/-- aviary/variable_info/variable_meta_data.py:60-1098. -/
def part0 : List Row := [
  ⟨t!"aircraft:air_conditioning:mass", t!"lbm", .missing, .float, false, false⟩,
  ⟨t!"aircraft:air_conditioning:mass_coefficient", t!"unitless", .missing, .float, false, false⟩,
  ⟨t!"aircraft:air_conditioning:mass_scaler", t!"unitless", .missing, .float, false, false⟩,
  ⟨t!"aircraft:anti_icing:mass", t!"lbm", .missing, .float, false, false⟩,
  ⟨t!"aircraft:anti_icing:mass_scaler", t!"unitless", .missing, .float, false, false⟩,
  ⟨t!"aircraft:apu:mass", t!"lbm", .missing, .float, false, false⟩,
  ⟨t!"aircraft:apu:mass_scaler", t!"unitless", .missing, .float, false, false⟩,
  ⟨t!"aircraft:avionics:mass", t!"lbm", .missing, .float, false, false⟩,
  ⟨t!"aircraft:avionics:mass_scaler", t!"unitless", .missing, .float, false, false⟩,
  ⟨t!"aircraft:battery:additional_mass", t!"lbm", .missing, .float, false, false⟩,
  ⟨t!"aircraft:battery:discharge_limit", t!"unitless", .missing, .float, false, false⟩,
  ⟨t!"aircraft:battery:efficiency", t!"unitless", .missing, .float, false, false⟩,
  ⟨t!"aircraft:battery:energy_capacity", t!"kJ", .missing, .float, false, false⟩,
  ⟨t!"aircraft:battery:mass", t!"lbm", .missing, .float, false, false⟩,
  ⟨t!"aircraft:battery:pack_energy_density", t!"W*h/kg", .missing, .float, false, false⟩,
  ⟨t!"aircraft:battery:pack_mass", t!"lbm", .missing, .float, false, false⟩,
  ⟨t!"aircraft:battery:pack_volumetric_density", t!"kW*h/L", .missing, .float, false, false⟩,
  ⟨t!"aircraft:battery:volume", t!"ft*3", .missing, .float, false, false⟩,
  ⟨t!"aircraft:blended_wing_body_design:detailed_wing_provided", t!"unitless", .bool, .bool, false, true⟩,
  ⟨t!"aircraft:blended_wing_body_design:max_bay_width", t!"ft", .float, .int, false, true⟩,
  ⟨t!"aircraft:blended_wing_body_design:max_num_bays", t!"unitless", .int, .int, false, true⟩,
  ⟨t!"aircraft:blended_wing_body_design:num_bays", t!"unitless", .int, .int, true, false⟩,
  ⟨t!"aircraft:blended_wing_body_design:passenger_leading_edge_sweep", t!"deg", .missing, .float, false, false⟩,
  ⟨t!"aircraft:blended_wing_body_design:rear_spar_percent_chord_centerline", t!"unitless", .missing, .float, false, false⟩,
  ⟨t!"aircraft:blended_wing_body_design:rear_spar_percent_chord_root", t!"unitless", .missing, .float, false, false⟩,
  ⟨t!"aircraft:blended_wing_body_design:wing_root_index", t!"unitless", .int, .int, false, true⟩,
  ⟨t!"aircraft:canard:area", t!"ft**2", .missing, .float, false, false⟩,
  ⟨t!"aircraft:canard:aspect_ratio", t!"unitless", .missing, .float, false, false⟩,
  ⟨t!"aircraft:canard:characteristic_length", t!"ft", .missing, .float, false, false⟩,
  ⟨t!"aircraft:canard:fineness", t!"unitless", .missing, .float, false, false⟩,
  ⟨t!"aircraft:canard:laminar_flow_lower", t!"unitless", .missing, .float, false, false⟩,
  ⟨t!"aircraft:canard:laminar_flow_upper", t!"unitless", .missing, .float, false, false⟩,
  ⟨t!"aircraft:canard:mass", t!"lbm", .missing, .float, false, false⟩,
  ⟨t!"aircraft:canard:mass_scaler", t!"unitless", .missing, .float, false, false⟩,
  ⟨t!"aircraft:canard:taper_ratio", t!"unitless", .missing, .float, false, false⟩,
  ⟨t!"aircraft:canard:thickness_to_chord", t!"unitless", .missing, .float, false, false⟩,
  ⟨t!"aircraft:canard:wetted_area", t!"ft**2", .missing, .float, false, false⟩,
  ⟨t!"aircraft:canard:wetted_area_scaler", t!"unitless", .missing, .float, false, false⟩,
  ⟨t!"aircraft:controls:cockpit_control_mass", t!"lbm", .missing, .float, false, false⟩,
  ⟨t!"aircraft:controls:cockpit_control_mass_scaler", t!"unitless", .missing, .float, false, false⟩,
  ⟨t!"aircraft:controls:control_mass_increment", t!"lbm", .missing, .int, false, false⟩,
  ⟨t!"aircraft:controls:mass", t!"lbm", .missing, .float, false, false⟩,
  ⟨t!"aircraft:controls:stability_augmentation_system_mass", t!"lbm", .missing, .int, false, false⟩,
  ⟨t!"aircraft:controls:stability_augmentation_system_mass_scaler", t!"unitless", .missing, .int, false, false⟩,
  ⟨t!"aircraft:controls:stability_augmentation_system_reference_mass", t!"lbm", .missing, .int, false, false⟩,
  ⟨t!"aircraft:crew_and_payload:baggage_mass", t!"lbm", .missing, .float, false, false⟩,
  ⟨t!"aircraft:crew_and_payload:baggage_mass_per_passenger", t!"lbm", .missing, .float, false, false⟩,
  ⟨t!"aircraft:crew_and_payload:cabin_crew_mass", t!"lbm", .missing, .float, false, false⟩,
  ⟨t!"aircraft:crew_and_payload:cabin_crew_mass_scaler", t!"unitless", .missing, .float, false, false⟩,
  ⟨t!"aircraft:crew_and_payload:cargo_container_mass", t!"lbm", .missing, .float, false, false⟩,
  ⟨t!"aircraft:crew_and_payload:cargo_container_mass_scaler", t!"unitless", .missing, .float, false, false⟩,
  ⟨t!"aircraft:crew_and_payload:cargo_mass", t!"lbm", .missing, .float, false, false⟩,
  ⟨t!"aircraft:crew_and_payload:catering_items_mass_per_passenger", t!"lbm", .missing, .float, false, false⟩,
  ⟨t!"aircraft:crew_and_payload:flight_crew_mass", t!"lbm", .missing, .float, false, false⟩,
  ⟨t!"aircraft:crew_and_payload:flight_crew_mass_scaler", t!"unitless", .missing, .float, false, false⟩,
  ⟨t!"aircraft:crew_and_payload:mass_per_passenger", t!"lbm", .missing, .float, false, false⟩,
  ⟨t!"aircraft:crew_and_payload:mass_per_passenger_with_bags", t!"lbm", .missing, .int, false, false⟩,
  ⟨t!"aircraft:crew_and_payload:misc_cargo", t!"lbm", .missing, .float, false, false⟩,
  ⟨t!"aircraft:crew_and_payload:num_business_class", t!"unitless", .int, .int, false, true⟩,
  ⟨t!"aircraft:crew_and_payload:num_cabin_crew", t!"unitless", .int, .int, false, true⟩,
  ⟨t!"aircraft:crew_and_payload:num_economy_class", t!"unitless", .int, .int, false, true⟩,
  ⟨t!"aircraft:crew_and_payload:num_first_class", t!"unitless", .int, .int, false, true⟩,
  ⟨t!"aircraft:crew_and_payload:num_flight_attendants", t!"unitless", .int, .int, false, true⟩,
  ⟨t!"aircraft:crew_and_payload:num_flight_crew", t!"unitless", .int, .int, false, true⟩,
  ⟨t!"aircraft:crew_and_payload:num_galley_crew", t!"unitless", .int, .int, false, true⟩,
  ⟨t!"aircraft:crew_and_payload:num_passengers", t!"unitless", .int, .int, false, true⟩,
  ⟨t!"aircraft:crew_and_payload:passenger_mass_total", t!"lbm", .missing, .float, false, false⟩,
  ⟨t!"aircraft:crew_and_payload:passenger_payload_mass", t!"lbm", .missing, .float, false, false⟩,
  ⟨t!"aircraft:crew_and_payload:passenger_service_mass", t!"lbm", .missing, .float, false, false⟩,
  ⟨t!"aircraft:crew_and_payload:passenger_service_mass_per_passenger", t!"lbm", .missing, .float, false, false⟩,
  ⟨t!"aircraft:crew_and_payload:passenger_service_mass_scaler", t!"unitless", .missing, .float, false, false⟩,
  ⟨t!"aircraft:crew_and_payload:total_payload_mass", t!"lbm", .missing, .float, false, false⟩,
  ⟨t!"aircraft:crew_and_payload:uld_mass_per_passenger", t!"lbm", .float, .float, false, true⟩,
  ⟨t!"aircraft:crew_and_payload:water_mass_per_occupant", t!"lbm", .missing, .float, false, false⟩,
  ⟨t!"aircraft:crew_and_payload:wing_cargo", t!"lbm", .missing, .float, false, false⟩,
  ⟨t!"aircraft:crew_and_payload:design:cargo_mass", t!"lbm", .missing, .float, false, false⟩,
  ⟨t!"aircraft:crew_and_payload:design:max_cargo_mass", t!"lbm", .missing, .float, false, false⟩,
  ⟨t!"aircraft:crew_and_payload:design:num_business_class", t!"unitless", .int, .int, false, true⟩,
  ⟨t!"aircraft:crew_and_payload:design:num_economy_class", t!"unitless", .int, .int, false, true⟩,
  ⟨t!"aircraft:crew_and_payload:design:num_first_class", t!"unitless", .int, .int, false, true⟩]

/-- aviary/variable_info/variable_meta_data.py:1100-2107. -/
def part1 : List Row := [
  ⟨t!"aircraft:crew_and_payload:design:num_passengers", t!"unitless", .int, .int, false, true⟩,
  ⟨t!"aircraft:crew_and_payload:design:num_seats_abreast_business", t!"unitless", .int, .int, false, true⟩,
  ⟨t!"aircraft:crew_and_payload:design:num_seats_abreast_economy", t!"unitless", .int, .int, false, true⟩,
  ⟨t!"aircraft:crew_and_payload:design:num_seats_abreast_first", t!"unitless", .int, .int, false, true⟩,
  ⟨t!"aircraft:crew_and_payload:design:seat_pitch_business", t!"inch", .missing, .float, false, true⟩,
  ⟨t!"aircraft:crew_and_payload:design:seat_pitch_economy", t!"inch", .missing, .float, false, true⟩,
  ⟨t!"aircraft:crew_and_payload:design:seat_pitch_first", t!"inch", .missing, .float, false, true⟩,
  ⟨t!"aircraft:design:base_area", t!"ft**2", .missing, .float, false, false⟩,
  ⟨t!"aircraft:design:cg_delta", t!"unitless", .missing, .float, false, false⟩,
  ⟨t!"aircraft:design:characteristic_lengths", t!"ft", .missing, .float, false, false⟩,
  ⟨t!"aircraft:design:cockpit_control_mass_coefficient", t!"unitless", .missing, .float, false, false⟩,
  ⟨t!"aircraft:design:compressibility_drag_factor", t!"unitless", .missing, .float, false, false⟩,
  ⟨t!"aircraft:design:compute_htail_volume_coeff", t!"unitless", .bool, .bool, false, true⟩,
  ⟨t!"aircraft:design:compute_vtail_volume_coeff", t!"unitless", .bool, .bool, false, true⟩,
  ⟨t!"aircraft:design:cruise_altitude", t!"ft", .missing, .float, false, true⟩,
  ⟨t!"aircraft:design:cruise_mach", t!"unitless", .missing, .float, false, false⟩,
  ⟨t!"aircraft:design:drag_coefficient_increment", t!"unitless", .missing, .float, false, false⟩,
  ⟨t!"aircraft:design:drag_divergence_shift", t!"unitless", .missing, .float, false, false⟩,
  ⟨t!"aircraft:design:drag_polar", t!"unitless", .float, .float, true, false⟩,
  ⟨t!"aircraft:design:emergency_equipment_mass", t!"lbm", .missing, .float, false, false⟩,
  ⟨t!"aircraft:design:empennage_mass", t!"lbm", .missing, .float, false, false⟩,
  ⟨t!"aircraft:design:empty_mass", t!"lbm", .missing, .float, false, false⟩,
  ⟨t!"aircraft:design:empty_mass_margin", t!"lbm", .missing, .float, false, false⟩,
  ⟨t!"aircraft:design:empty_mass_margin_scaler", t!"unitless", .missing, .float, false, false⟩,
  ⟨t!"aircraft:design:excrescence_drag_factor", t!"unitless", .missing, .float, false, false⟩,
  ⟨t!"aircraft:design:external_subsystems_mass", t!"lbm", .missing, .float, false, false⟩,
  ⟨t!"aircraft:design:fineness", t!"unitless", .missing, .float, false, false⟩,
  ⟨t!"aircraft:design:gross_mass", t!"lbm", .missing, .float, false, false⟩,
  ⟨t!"ijeff", t!"unitless", .missing, .float, false, false⟩,
  ⟨t!"aircraft:design:interference_drag_factor", t!"unitless", .missing, .float, false, false⟩,
  ⟨t!"aircraft:design:laminar_flow_lower", t!"unitless", .missing, .float, false, false⟩,
  ⟨t!"aircraft:design:laminar_flow_upper", t!"unitless", .missing, .float, false, false⟩,
  ⟨t!"aircraft:design:landing_to_takeoff_mass_ratio", t!"unitless", .missing, .float, false, false⟩,
  ⟨t!"aircraft:design:lift_coefficient", t!"unitless", .missing, .float, false, false⟩,
  ⟨t!"aircraft:design:lift_coefficient_max_flaps_up", t!"unitless", .missing, .float, false, false⟩,
  ⟨t!"aircraft:design:lift_curve_slope", t!"1/rad", .missing, .float, false, false⟩,
  ⟨t!"aircraft:design:lift_dependent_drag_coeff_factor", t!"unitless", .missing, .float, false, false⟩,
  ⟨t!"aircraft:design:lift_dependent_drag_polar", t!"unitless", .float, .float, true, false⟩,
  ⟨t!"aircraft:design:lift_independent_drag_polar", t!"unitless", .float, .float, true, false⟩,
  ⟨t!"aircraft:design:lift_polar", t!"unitless", .float, .float, true, false⟩,
  ⟨t!"aircraft:design:mach", t!"unitless", .missing, .float, false, false⟩,
  ⟨t!"aircraft:design:max_fuselage_pitch_angle", t!"deg", .missing, .int, false, false⟩,
  ⟨t!"aircraft:design:max_structural_speed", t!"mi/h", .missing, .int, false, false⟩,
  ⟨t!"aircraft:design:part25_structural_category", t!"unitless", .int, .int, false, true⟩,
  ⟨t!"aircraft:design:percent_excrescence_drag", t!"unitless", .missing, .float, false, true⟩,
  ⟨t!"aircraft:design:range", t!"NM", .missing, .float, false, false⟩,
  ⟨t!"aircraft:design:smooth_mass_discontinuities", t!"unitless", .bool, .bool, false, true⟩,
  ⟨t!"aircraft:design:static_margin", t!"unitless", .missing, .float, false, false⟩,
  ⟨t!"aircraft:design:structural_mass_increment", t!"lbm", .missing, .int, false, false⟩,
  ⟨t!"aircraft:design:structure_mass", t!"lbm", .missing, .float, false, false⟩,
  ⟨t!"aircraft:design:subsonic_drag_coeff_factor", t!"unitless", .missing, .float, false, false⟩,
  ⟨t!"aircraft:design:supersonic_drag_coeff_factor", t!"unitless", .missing, .float, false, false⟩,
  ⟨t!"aircraft:design:systems_and_equipment_mass", t!"lbm", .missing, .float, false, false⟩,
  ⟨t!"aircraft:design:systems_and_equipment_mass_base", t!"lbm", .missing, .float, false, false⟩,
  ⟨t!"aircraft:design:thrust_to_weight_ratio", t!"unitless", .float, .float, false, false⟩,
  ⟨t!"aircraft:design:total_wetted_area", t!"ft**2", .missing, .float, false, false⟩,
  ⟨t!"aircraft:design:touchdown_mass_max", t!"lbm", .missing, .float, false, false⟩,
  ⟨t!"aircraft:design:type", t!"unitless", .enum, .enum, false, true⟩,
  ⟨t!"aircraft:design:ulf_calculated_from_maneuver", t!"unitless", .bool, .bool, false, true⟩,
  ⟨t!"aircraft:design:use_alt_mass", t!"unitless", .bool, .bool, false, true⟩,
  ⟨t!"aircraft:design:useful_load_mass", t!"lbm", .missing, .float, false, false⟩,
  ⟨t!"aircraft:design:wetted_areas", t!"ft**2", .missing, .float, false, false⟩,
  ⟨t!"aircraft:design:wing_loading", t!"lbf/ft**2", .float, .int, false, false⟩,
  ⟨t!"aircraft:design:zero_lift_drag_coeff_factor", t!"unitless", .missing, .float, false, false⟩,
  ⟨t!"aircraft:electrical:has_hybrid_system", t!"unitless", .bool, .bool, false, true⟩,
  ⟨t!"aircraft:electrical:hybrid_cable_length", t!"ft", .missing, .float, false, false⟩,
  ⟨t!"aircraft:electrical:mass", t!"lbm", .missing, .float, false, false⟩,
  ⟨t!"aircraft:electrical:mass_scaler", t!"unitless", .missing, .float, false, false⟩,
  ⟨t!"aircraft:electrical:system_mass_per_passenger", t!"lbm", .missing, .float, false, false⟩,
  ⟨t!"aircraft:engine:additional_mass", t!"lbm", .missing, .float, true, false⟩,
  ⟨t!"aircraft:engine:additional_mass_fraction", t!"unitless", .any, .float, true, true⟩,
  ⟨t!"aircraft:engine:constant_fuel_mass_consumption", t!"lbm/h", .missing, .float, true, true⟩,
  ⟨t!"aircraft:engine:data_file", t!"unitless", .str, .missing, true, true⟩,
  ⟨t!"aircraft:engine:fixed_rpm", t!"rpm", .missing, .float, true, true⟩,
  ⟨t!"aircraft:engine:flight_idle_max_fraction", t!"unitless", .missing, .float, true, true⟩,
  ⟨t!"aircraft:engine:flight_idle_min_fraction", t!"unitless", .missing, .float, true, true⟩,
  ⟨t!"aircraft:engine:flight_idle_thrust_fraction", t!"unitless", .missing, .float, true, true⟩,
  ⟨t!"aircraft:engine:fuel_flow_scaler_constant_term", t!"unitless", .missing, .float, true, true⟩,
  ⟨t!"aircraft:engine:fuel_flow_scaler_linear_term", t!"unitless", .missing, .float, true, true⟩,
  ⟨t!"aircraft:engine:generate_flight_idle", t!"unitless", .bool, .bool, true, true⟩]

/-- aviary/variable_info/variable_meta_data.py:2109-3203. -/
def part2 : List Row := [
  ⟨t!"aircraft:engine:geopotential_alt", t!"unitless", .bool, .bool, true, true⟩,
  ⟨t!"aircraft:engine:global_hybrid_throttle", t!"unitless", .bool, .bool, true, true⟩,
  ⟨t!"aircraft:engine:global_throttle", t!"unitless", .bool, .bool, true, true⟩,
  ⟨t!"aircraft:engine:ignore_negative_thrust", t!"unitless", .bool, .bool, true, true⟩,
  ⟨t!"aircraft:engine:inlet_area_coefficient", t!"unitless", .float, .float, true, false⟩,
  ⟨t!"aircraft:engine:interpolation_method", t!"unitless", .str, .str, true, true⟩,
  ⟨t!"aircraft:engine:interpolation_sort", t!"unitless", .str, .str, true, true⟩,
  ⟨t!"aircraft:engine:mass", t!"lbm", .missing, .float, true, false⟩,
  ⟨t!"aircraft:engine:mass_scaler", t!"unitless", .missing, .float, true, false⟩,
  ⟨t!"aircraft:engine:mass_specific", t!"lbm/lbf", .missing, .float, true, false⟩,
  ⟨t!"aircraft:engine:num_engines", t!"unitless", .int, .int, true, true⟩,
  ⟨t!"aircraft:engine:num_fuselage_engines", t!"unitless", .int, .int, true, true⟩,
  ⟨t!"aircraft:engine:num_wing_engines", t!"unitless", .int, .int, true, true⟩,
  ⟨t!"aircraft:engine:pod_mass", t!"lbm", .missing, .float, true, false⟩,
  ⟨t!"aircraft:engine:pod_mass_scaler", t!"unitless", .missing, .float, true, false⟩,
  ⟨t!"aircraft:engine:pylon_factor", t!"unitless", .missing, .float, true, false⟩,
  ⟨t!"aircraft:engine:reference_mass", t!"lbm", .missing, .float, true, false⟩,
  ⟨t!"aircraft:engine:reference_sls_thrust", t!"lbf", .missing, .float, true, false⟩,
  ⟨t!"aircraft:engine:rpm_design", t!"rpm", .missing, .float, true, true⟩,
  ⟨t!"aircraft:engine:scale_factor", t!"unitless", .missing, .float, true, false⟩,
  ⟨t!"aircraft:engine:scale_mass", t!"unitless", .bool, .bool, true, true⟩,
  ⟨t!"aircraft:engine:scaled_sls_thrust", t!"lbf", .missing, .float, true, false⟩,
  ⟨t!"aircraft:engine:subsonic_fuel_flow_scaler", t!"unitless", .missing, .float, true, true⟩,
  ⟨t!"aircraft:engine:supersonic_fuel_flow_scaler", t!"unitless", .missing, .float, true, true⟩,
  ⟨t!"aircraft:engine:thrust_reversers_mass", t!"lbm", .missing, .float, true, false⟩,
  ⟨t!"aircraft:engine:thrust_reversers_mass_scaler", t!"unitless", .missing, .float, true, false⟩,
  ⟨t!"aircraft:engine:type", t!"unitless", .enum, .enum, true, true⟩,
  ⟨t!"aircraft:engine:wing_locations", t!"unitless", .any, .float, true, false⟩,
  ⟨t!"aircraft:engine:gearbox:efficiency", t!"unitless", .missing, .float, true, false⟩,
  ⟨t!"aircraft:engine:gearbox:gear_ratio", t!"unitless", .missing, .float, true, false⟩,
  ⟨t!"aircraft:engine:gearbox:mass", t!"lbm", .missing, .int, true, false⟩,
  ⟨t!"aircraft:engine:gearbox:shaft_power_design", t!"hp", .missing, .float, true, false⟩,
  ⟨t!"aircraft:engine:gearbox:specific_torque", t!"lbf*ft/lbm", .missing, .int, true, false⟩,
  ⟨t!"aircraft:engine:motor:data_file", t!"unitless", .str, .missing, true, true⟩,
  ⟨t!"aircraft:engine:motor:mass", t!"lbm", .missing, .float, true, false⟩,
  ⟨t!"aircraft:engine:motor:torque_max", t!"lbf*ft", .missing, .float, true, false⟩,
  ⟨t!"aircraft:engine:propeller:activity_factor", t!"unitless", .missing, .float, true, false⟩,
  ⟨t!"aircraft:engine:propeller:compute_installation_loss", t!"unitless", .bool, .bool, true, true⟩,
  ⟨t!"aircraft:engine:propeller:data_file", t!"unitless", .str, .missing, true, true⟩,
  ⟨t!"aircraft:engine:propeller:diameter", t!"ft", .missing, .float, true, false⟩,
  ⟨t!"aircraft:engine:propeller:integrated_lift_coefficient", t!"unitless", .missing, .float, true, false⟩,
  ⟨t!"aircraft:engine:propeller:mass", t!"lbm", .float, .int, true, false⟩,
  ⟨t!"aircraft:engine:propeller:num_blades", t!"unitless", .int, .int, true, true⟩,
  ⟨t!"aircraft:engine:propeller:tip_mach_max", t!"unitless", .missing, .float, true, false⟩,
  ⟨t!"aircraft:engine:propeller:tip_speed_max", t!"ft/s", .missing, .float, true, false⟩,
  ⟨t!"aircraft:fins:area", t!"ft**2", .missing, .float, false, false⟩,
  ⟨t!"aircraft:fins:mass", t!"lbm", .missing, .float, false, false⟩,
  ⟨t!"aircraft:fins:mass_scaler", t!"unitless", .missing, .float, false, false⟩,
  ⟨t!"aircraft:fins:num_fins", t!"unitless", .int, .int, false, true⟩,
  ⟨t!"aircraft:fins:taper_ratio", t!"unitless", .missing, .float, false, false⟩,
  ⟨t!"aircraft:fuel:auxiliary_fuel_mass_capacity", t!"lbm", .missing, .float, false, false⟩,
  ⟨t!"aircraft:fuel:density", t!"lbm/galUS", .missing, .float, false, false⟩,
  ⟨t!"aircraft:fuel:fuel_system_mass", t!"lbm", .missing, .float, false, false⟩,
  ⟨t!"aircraft:fuel:fuel_system_mass_coefficient", t!"unitless", .missing, .float, false, false⟩,
  ⟨t!"aircraft:fuel:fuel_system_mass_scaler", t!"unitless", .missing, .float, false, false⟩,
  ⟨t!"aircraft:fuel:fuselage_fuel_mass_capacity", t!"lbm", .missing, .float, false, false⟩,
  ⟨t!"aircraft:fuel:ignore_fuel_capacity_constraint", t!"unitless", .bool, .bool, false, true⟩,
  ⟨t!"aircraft:fuel:max_capacity_mass", t!"lbm", .missing, .float, false, false⟩,
  ⟨t!"aircraft:fuel:max_capacity_volume", t!"galUS", .missing, .float, false, false⟩,
  ⟨t!"aircraft:fuel:num_tanks", t!"unitless", .int, .int, false, true⟩,
  ⟨t!"aircraft:fuel:unusable_fuel_mass", t!"lbm", .missing, .float, false, false⟩,
  ⟨t!"aircraft:fuel:unusable_fuel_mass_coefficient", t!"unitless", .missing, .float, false, false⟩,
  ⟨t!"aircraft:fuel:unusable_fuel_mass_scaler", t!"unitless", .missing, .float, false, false⟩,
  ⟨t!"aircraft:fuel:volume_margin", t!"unitless", .missing, .float, false, false⟩,
  ⟨t!"aircraft:fuel:wing_fuel_fraction", t!"unitless", .missing, .float, false, false⟩,
  ⟨t!"aircraft:fuel:wing_fuel_mass_capacity", t!"lbm", .missing, .float, false, false⟩,
  ⟨t!"aircraft:fuel:wing_volume_design", t!"ft**3", .missing, .float, false, false⟩,
  ⟨t!"aircraft:fuel:wing_volume_geometric_max", t!"ft**3", .missing, .float, false, false⟩,
  ⟨t!"aircraft:fuel:wing_volume_structural_max", t!"ft**3", .missing, .float, false, false⟩,
  ⟨t!"aircraft:furnishings:mass", t!"lbm", .missing, .float, false, false⟩,
  ⟨t!"aircraft:furnishings:mass_base", t!"lbm", .missing, .float, false, false⟩,
  ⟨t!"aircraft:furnishings:mass_scaler", t!"unitless", .missing, .float, false, false⟩,
  ⟨t!"aircraft:furnishings:use_empirical_equation", t!"unitless", .bool, .bool, false, true⟩,
  ⟨t!"aircraft:fuselage:aftbody_mass", t!"lbm", .missing, .float, false, false⟩,
  ⟨t!"aircraft:fuselage:aftbody_mass_per_unit_area", t!"lbm/ft**2", .missing, .float, false, false⟩,
  ⟨t!"aircraft:fuselage:aisle_width", t!"inch", .missing, .int, false, false⟩,
  ⟨t!"aircraft:fuselage:avg_diameter", t!"ft", .missing, .float, false, false⟩,
  ⟨t!"aircraft:fuselage:cabin_area", t!"ft**2", .missing, .float, false, false⟩,
  ⟨t!"aircraft:fuselage:cabin_sidewall_length_min", t!"ft", .float, .float, false, true⟩,
  ⟨t!"aircraft:fuselage:characteristic_length", t!"ft", .missing, .float, false, false⟩]

/-- aviary/variable_info/variable_meta_data.py:3205-4140. -/
def part3 : List Row := [
  ⟨t!"aircraft:fuselage:cross_section", t!"ft**2", .missing, .float, false, false⟩,
  ⟨t!"aircraft:fuselage:delta_diameter", t!"ft", .missing, .float, false, false⟩,
  ⟨t!"aircraft:fuselage:diameter_to_wing_span", t!"unitless", .missing, .float, false, false⟩,
  ⟨t!"aircraft:fuselage:drag_factor", t!"unitless", .missing, .float, false, false⟩,
  ⟨t!"aircraft:fuselage:fineness", t!"unitless", .missing, .float, false, false⟩,
  ⟨t!"aircraft:fuselage:flat_plate_area_increment", t!"ft**2", .missing, .float, false, false⟩,
  ⟨t!"aircraft:fuselage:forebody_mass", t!"lbm", .missing, .float, false, false⟩,
  ⟨t!"aircraft:fuselage:form_factor", t!"unitless", .missing, .float, false, false⟩,
  ⟨t!"aircraft:fuselage:height_to_width_ratio", t!"unitless", .float, .float, false, false⟩,
  ⟨t!"aircraft:fuselage:hydraulic_diameter", t!"ft", .float, .float, false, false⟩,
  ⟨t!"aircraft:fuselage:laminar_flow_lower", t!"unitless", .missing, .float, false, false⟩,
  ⟨t!"aircraft:fuselage:laminar_flow_upper", t!"unitless", .missing, .float, false, false⟩,
  ⟨t!"aircraft:fuselage:length", t!"ft", .missing, .float, false, false⟩,
  ⟨t!"aircraft:fuselage:length_to_diameter", t!"unitless", .missing, .float, false, false⟩,
  ⟨t!"aircraft:fuselage:lift_coefficient_ratio_body_to_wing", t!"unitless", .float, .float, false, false⟩,
  ⟨t!"aircraft:fuselage:lift_curve_slope_mach0", t!"1/rad", .missing, .float, false, false⟩,
  ⟨t!"aircraft:fuselage:mass", t!"lbm", .missing, .float, false, false⟩,
  ⟨t!"aircraft:fuselage:mass_coefficient", t!"unitless", .missing, .int, false, false⟩,
  ⟨t!"aircraft:fuselage:mass_scaler", t!"unitless", .missing, .float, false, false⟩,
  ⟨t!"aircraft:fuselage:max_height", t!"ft", .missing, .float, false, false⟩,
  ⟨t!"aircraft:fuselage:max_width", t!"ft", .missing, .float, false, false⟩,
  ⟨t!"aircraft:fuselage:military_cargo_floor", t!"unitless", .bool, .bool, false, true⟩,
  ⟨t!"aircraft:fuselage:nose_fineness", t!"unitless", .missing, .int, false, false⟩,
  ⟨t!"aircraft:fuselage:num_aisles", t!"unitless", .int, .int, false, true⟩,
  ⟨t!"aircraft:fuselage:num_fuselages", t!"unitless", .int, .int, false, true⟩,
  ⟨t!"aircraft:fuselage:passenger_compartment_length", t!"ft", .missing, .float, false, false⟩,
  ⟨t!"aircraft:fuselage:pilot_compartment_length", t!"ft", .missing, .float, false, false⟩,
  ⟨t!"aircraft:fuselage:planform_area", t!"ft**2", .missing, .float, false, false⟩,
  ⟨t!"aircraft:fuselage:pressure_differential", t!"psi", .missing, .float, false, false⟩,
  ⟨t!"aircraft:fuselage:pressurized_width_additional", t!"ft", .missing, .float, false, false⟩,
  ⟨t!"aircraft:fuselage:ref_diameter", t!"ft", .missing, .float, false, false⟩,
  ⟨t!"aircraft:fuselage:seat_width_business", t!"inch", .missing, .float, false, false⟩,
  ⟨t!"aircraft:fuselage:seat_width_economy", t!"inch", .missing, .float, false, false⟩,
  ⟨t!"aircraft:fuselage:seat_width_first", t!"inch", .missing, .float, false, false⟩,
  ⟨t!"aircraft:fuselage:sidebody_thickness_to_chord", t!"unitless", .missing, .float, false, false⟩,
  ⟨t!"aircraft:fuselage:simple_layout", t!"unitless", .bool, .bool, false, true⟩,
  ⟨t!"aircraft:fuselage:tail_fineness", t!"unitless", .missing, .float, false, false⟩,
  ⟨t!"aircraft:fuselage:wetted_area", t!"ft**2", .missing, .float, false, false⟩,
  ⟨t!"aircraft:fuselage:wetted_area_ratio_aftbody_to_total", t!"unitless", .float, .float, false, false⟩,
  ⟨t!"aircraft:fuselage:wetted_area_scaler", t!"unitless", .missing, .float, false, false⟩,
  ⟨t!"aircraft:horizontal_tail:area", t!"ft**2", .missing, .float, false, false⟩,
  ⟨t!"aircraft:horizontal_tail:aspect_ratio", t!"unitless", .missing, .float, false, false⟩,
  ⟨t!"aircraft:horizontal_tail:average_chord", t!"ft", .missing, .float, false, false⟩,
  ⟨t!"aircraft:horizontal_tail:characteristic_length", t!"ft", .missing, .float, false, false⟩,
  ⟨t!"aircraft:horizontal_tail:drag_factor", t!"unitless", .missing, .float, false, false⟩,
  ⟨t!"aircraft:horizontal_tail:fineness", t!"unitless", .missing, .float, false, false⟩,
  ⟨t!"aircraft:horizontal_tail:form_factor", t!"unitless", .missing, .float, false, false⟩,
  ⟨t!"aircraft:horizontal_tail:laminar_flow_lower", t!"unitless", .missing, .float, false, false⟩,
  ⟨t!"aircraft:horizontal_tail:laminar_flow_upper", t!"unitless", .missing, .float, false, false⟩,
  ⟨t!"aircraft:horizontal_tail:mass", t!"lbm", .missing, .float, false, false⟩,
  ⟨t!"aircraft:horizontal_tail:mass_coefficient", t!"unitless", .missing, .float, false, false⟩,
  ⟨t!"aircraft:horizontal_tail:mass_scaler", t!"unitless", .missing, .float, false, false⟩,
  ⟨t!"aircraft:horizontal_tail:moment_arm", t!"ft", .missing, .float, false, false⟩,
  ⟨t!"aircraft:horizontal_tail:moment_ratio", t!"unitless", .missing, .float, false, false⟩,
  ⟨t!"aircraft:horizontal_tail:num_tails", t!"unitless", .int, .int, false, true⟩,
  ⟨t!"aircraft:horizontal_tail:root_chord", t!"ft", .missing, .float, false, false⟩,
  ⟨t!"aircraft:horizontal_tail:span", t!"ft", .missing, .float, false, false⟩,
  ⟨t!"aircraft:horizontal_tail:sweep", t!"deg", .missing, .float, false, false⟩,
  ⟨t!"aircraft:horizontal_tail:taper_ratio", t!"unitless", .missing, .float, false, false⟩,
  ⟨t!"aircraft:horizontal_tail:thickness_to_chord", t!"unitless", .missing, .float, false, false⟩,
  ⟨t!"aircraft:horizontal_tail:vertical_tail_mount_location", t!"unitless", .missing, .float, false, false⟩,
  ⟨t!"aircraft:horizontal_tail:volume_coefficient", t!"unitless", .missing, .float, false, false⟩,
  ⟨t!"aircraft:horizontal_tail:wetted_area", t!"ft**2", .missing, .float, false, false⟩,
  ⟨t!"aircraft:horizontal_tail:wetted_area_scaler", t!"unitless", .missing, .float, false, false⟩,
  ⟨t!"aircraft:hydraulics:flight_control_mass_coefficient", t!"unitless", .missing, .float, false, false⟩,
  ⟨t!"aircraft:hydraulics:gear_mass_coefficient", t!"unitless", .missing, .float, false, false⟩,
  ⟨t!"aircraft:hydraulics:mass", t!"lbm", .missing, .float, false, false⟩,
  ⟨t!"aircraft:hydraulics:mass_scaler", t!"unitless", .missing, .float, false, false⟩,
  ⟨t!"aircraft:hydraulics:system_pressure", t!"psi", .missing, .float, false, false⟩,
  ⟨t!"aircraft:instruments:mass", t!"lbm", .missing, .float, false, false⟩,
  ⟨t!"aircraft:instruments:mass_coefficient", t!"unitless", .missing, .float, false, false⟩,
  ⟨t!"aircraft:instruments:mass_scaler", t!"unitless", .missing, .float, false, false⟩,
  ⟨t!"aircraft:landing_gear:drag_coefficient", t!"unitless", .missing, .float, false, true⟩,
  ⟨t!"aircraft:landing_gear:fixed_gear", t!"unitless", .bool, .bool, false, true⟩,
  ⟨t!"aircraft:landing_gear:main_gear_location", t!"unitless", .missing, .float, false, false⟩,
  ⟨t!"aircraft:landing_gear:main_gear_mass", t!"lbm", .missing, .float, false, false⟩,
  ⟨t!"aircraft:landing_gear:main_gear_mass_fraction", t!"unitless", .missing, .float, false, false⟩,
  ⟨t!"aircraft:landing_gear:main_gear_mass_scaler", t!"unitless", .missing, .float, false, false⟩,
  ⟨t!"aircraft:landing_gear:main_gear_oleo_length", t!"inch", .missing, .float, false, false⟩,
  ⟨t!"aircraft:landing_gear:mass_coefficient", t!"unitless", .missing, .float, false, false⟩]

/-- aviary/variable_info/variable_meta_data.py:4142-5079. -/
def part4 : List Row := [
  ⟨t!"aircraft:landing_gear:nose_gear_mass", t!"lbm", .missing, .float, false, false⟩,
  ⟨t!"aircraft:landing_gear:nose_gear_mass_scaler", t!"unitless", .missing, .float, false, false⟩,
  ⟨t!"aircraft:landing_gear:nose_gear_oleo_length", t!"inch", .missing, .float, false, false⟩,
  ⟨t!"aircraft:landing_gear:tail_hook_mass_scaler", t!"unitless", .missing, .int, false, false⟩,
  ⟨t!"aircraft:landing_gear:total_mass", t!"lbm", .missing, .float, false, false⟩,
  ⟨t!"aircraft:landing_gear:total_mass_scaler", t!"unitless", .missing, .float, false, false⟩,
  ⟨t!"aircraft:nacelle:avg_diameter", t!"ft", .missing, .float, true, false⟩,
  ⟨t!"aircraft:nacelle:avg_length", t!"ft", .missing, .float, true, false⟩,
  ⟨t!"aircraft:nacelle:characteristic_length", t!"ft", .missing, .float, true, false⟩,
  ⟨t!"aircraft:nacelle:clearance_ratio", t!"unitless", .missing, .float, true, false⟩,
  ⟨t!"aircraft:nacelle:core_diameter_ratio", t!"unitless", .missing, .float, true, false⟩,
  ⟨t!"aircraft:nacelle:drag_factor", t!"unitless", .missing, .float, false, false⟩,
  ⟨t!"aircraft:nacelle:fineness", t!"unitless", .missing, .float, true, false⟩,
  ⟨t!"aircraft:nacelle:form_factor", t!"unitless", .missing, .float, true, false⟩,
  ⟨t!"aircraft:nacelle:laminar_flow_lower", t!"unitless", .missing, .float, true, false⟩,
  ⟨t!"aircraft:nacelle:laminar_flow_upper", t!"unitless", .missing, .float, true, false⟩,
  ⟨t!"aircraft:nacelle:mass", t!"lbm", .missing, .float, true, false⟩,
  ⟨t!"aircraft:nacelle:mass_scaler", t!"unitless", .missing, .float, true, false⟩,
  ⟨t!"aircraft:nacelle:mass_specific", t!"lbm/ft**2", .missing, .float, true, false⟩,
  ⟨t!"aircraft:nacelle:percent_diam_buried_in_fuselage", t!"unitless", .missing, .float, true, false⟩,
  ⟨t!"aircraft:nacelle:pylon_drag_factor", t!"unitless", .missing, .float, false, false⟩,
  ⟨t!"aircraft:nacelle:surface_area", t!"ft**2", .missing, .float, true, false⟩,
  ⟨t!"aircraft:nacelle:total_wetted_area", t!"ft**2", .missing, .float, true, false⟩,
  ⟨t!"aircraft:nacelle:wetted_area", t!"ft**2", .missing, .float, true, false⟩,
  ⟨t!"aircraft:nacelle:wetted_area_scaler", t!"unitless", .missing, .float, true, false⟩,
  ⟨t!"aircraft:oxygen_system:mass", t!"lbm", .missing, .float, false, false⟩,
  ⟨t!"aircraft:oxygen_system:mass_scaler", t!"unitless", .missing, .float, false, false⟩,
  ⟨t!"aircraft:paint:mass", t!"lbm", .missing, .float, false, false⟩,
  ⟨t!"aircraft:paint:mass_per_unit_area", t!"lbm/ft**2", .missing, .float, false, false⟩,
  ⟨t!"aircraft:propulsion:energy_system_mass", t!"lbm", .missing, .float, false, false⟩,
  ⟨t!"aircraft:propulsion:engine_oil_mass_scaler", t!"unitless", .missing, .float, false, false⟩,
  ⟨t!"aircraft:propulsion:engine_position_factor", t!"unitless", .missing, .int, false, false⟩,
  ⟨t!"aircraft:propulsion:mass", t!"lbm", .missing, .float, false, false⟩,
  ⟨t!"aircraft:propulsion:misc_mass_scaler", t!"unitless", .missing, .float, false, false⟩,
  ⟨t!"aircraft:propulsion:total_engine_controls_mass", t!"lbm", .missing, .float, false, false⟩,
  ⟨t!"aircraft:propulsion:total_engine_mass", t!"lbm", .missing, .float, false, false⟩,
  ⟨t!"aircraft:propulsion:total_engine_oil_mass", t!"lbm", .missing, .float, false, false⟩,
  ⟨t!"aircraft:propulsion:total_engine_pod_mass", t!"lbm", .missing, .float, false, false⟩,
  ⟨t!"aircraft:propulsion:total_misc_mass", t!"lbm", .missing, .float, false, false⟩,
  ⟨t!"aircraft:propulsion:total_num_engines", t!"unitless", .int, .int, false, true⟩,
  ⟨t!"aircraft:propulsion:total_num_fuselage_engines", t!"unitless", .int, .int, false, true⟩,
  ⟨t!"aircraft:propulsion:total_num_wing_engines", t!"unitless", .int, .int, false, true⟩,
  ⟨t!"aircraft:propulsion:total_reference_sls_thrust", t!"lbf", .missing, .float, false, true⟩,
  ⟨t!"aircraft:propulsion:total_scaled_sls_thrust", t!"lbf", .missing, .float, false, false⟩,
  ⟨t!"aircraft:propulsion:total_starter_mass", t!"lbm", .missing, .float, false, false⟩,
  ⟨t!"aircraft:propulsion:total_thrust_reversers_mass", t!"lbm", .missing, .float, false, false⟩,
  ⟨t!"aircraft:strut:area", t!"ft**2", .missing, .int, false, false⟩,
  ⟨t!"aircraft:strut:area_ratio", t!"unitless", .missing, .float, false, false⟩,
  ⟨t!"aircraft:strut:attachment_location", t!"ft", .missing, .float, false, false⟩,
  ⟨t!"aircraft:strut:attachment_location_dimensionless", t!"unitless", .missing, .float, false, false⟩,
  ⟨t!"aircraft:strut:chord", t!"ft", .missing, .float, false, false⟩,
  ⟨t!"aircraft:strut:dimensional_location_specified", t!"unitless", .bool, .bool, false, true⟩,
  ⟨t!"aircraft:strut:drag_factor", t!"unitless", .missing, .float, false, false⟩,
  ⟨t!"aircraft:strut:fuselage_interference_factor", t!"unitless", .missing, .float, false, false⟩,
  ⟨t!"aircraft:strut:length", t!"ft", .missing, .int, false, false⟩,
  ⟨t!"aircraft:strut:mass", t!"lbm", .missing, .int, false, false⟩,
  ⟨t!"aircraft:strut:mass_coefficient", t!"unitless", .missing, .int, false, false⟩,
  ⟨t!"aircraft:strut:thickness_to_chord", t!"unitless", .missing, .int, false, false⟩,
  ⟨t!"aircraft:tail_boom:length", t!"ft", .missing, .float, false, false⟩,
  ⟨t!"aircraft:vertical_tail:area", t!"ft**2", .missing, .float, false, false⟩,
  ⟨t!"aircraft:vertical_tail:aspect_ratio", t!"unitless", .missing, .float, false, false⟩,
  ⟨t!"aircraft:vertical_tail:average_chord", t!"ft", .missing, .float, false, false⟩,
  ⟨t!"aircraft:vertical_tail:characteristic_length", t!"ft", .missing, .float, false, false⟩,
  ⟨t!"aircraft:vertical_tail:drag_factor", t!"unitless", .missing, .float, false, false⟩,
  ⟨t!"aircraft:vertical_tail:fineness", t!"unitless", .missing, .float, false, false⟩,
  ⟨t!"aircraft:vertical_tail:form_factor", t!"unitless", .missing, .float, false, false⟩,
  ⟨t!"aircraft:vertical_tail:laminar_flow_lower", t!"unitless", .missing, .float, false, false⟩,
  ⟨t!"aircraft:vertical_tail:laminar_flow_upper", t!"unitless", .missing, .float, false, false⟩,
  ⟨t!"aircraft:vertical_tail:mass", t!"lbm", .missing, .float, false, false⟩,
  ⟨t!"aircraft:vertical_tail:mass_coefficient", t!"unitless", .missing, .float, false, false⟩,
  ⟨t!"aircraft:vertical_tail:mass_scaler", t!"unitless", .missing, .float, false, false⟩,
  ⟨t!"aircraft:vertical_tail:moment_arm", t!"ft", .missing, .float, false, false⟩,
  ⟨t!"aircraft:vertical_tail:moment_ratio", t!"unitless", .missing, .float, false, false⟩,
  ⟨t!"aircraft:vertical_tail:num_tails", t!"unitless", .int, .int, false, true⟩,
  ⟨t!"aircraft:vertical_tail:root_chord", t!"ft", .missing, .float, false, false⟩,
  ⟨t!"aircraft:vertical_tail:span", t!"ft", .missing, .float, false, false⟩,
  ⟨t!"aircraft:vertical_tail:sweep", t!"deg", .missing, .float, false, false⟩,
  ⟨t!"aircraft:vertical_tail:taper_ratio", t!"unitless", .missing, .float, false, false⟩,
  ⟨t!"aircraft:vertical_tail:thickness_to_chord", t!"unitless", .missing, .float, false, false⟩,
  ⟨t!"aircraft:vertical_tail:volume_coefficient", t!"unitless", .missing, .float, false, false⟩]

/-- aviary/variable_info/variable_meta_data.py:5081-6014. -/
def part5 : List Row := [
  ⟨t!"aircraft:vertical_tail:wetted_area", t!"ft**2", .missing, .float, false, false⟩,
  ⟨t!"aircraft:vertical_tail:wetted_area_scaler", t!"unitless", .missing, .float, false, false⟩,
  ⟨t!"aircraft:wing:aeroelastic_tailoring_factor", t!"unitless", .missing, .float, false, false⟩,
  ⟨t!"aircraft:wing:airfoil_technology", t!"unitless", .missing, .float, false, true⟩,
  ⟨t!"aircraft:wing:area", t!"ft**2", .missing, .float, false, false⟩,
  ⟨t!"aircraft:wing:aspect_ratio", t!"unitless", .missing, .float, false, false⟩,
  ⟨t!"aircraft:wing:aspect_ratio_reference", t!"unitless", .missing, .float, false, false⟩,
  ⟨t!"aircraft:wing:average_chord", t!"ft", .missing, .float, false, false⟩,
  ⟨t!"aircraft:wing:bending_material_factor", t!"unitless", .missing, .float, false, false⟩,
  ⟨t!"aircraft:wing:bending_material_mass", t!"lbm", .missing, .float, false, false⟩,
  ⟨t!"aircraft:wing:bending_material_mass_scaler", t!"unitless", .missing, .float, false, false⟩,
  ⟨t!"aircraft:wing:bwb_aftbody_mass", t!"lbm", .missing, .float, false, false⟩,
  ⟨t!"aircraft:wing:bwb_aftbody_mass_scaler", t!"unitless", .missing, .float, false, false⟩,
  ⟨t!"aircraft:wing:center_chord", t!"ft", .missing, .float, false, false⟩,
  ⟨t!"aircraft:wing:center_distance", t!"unitless", .missing, .float, false, false⟩,
  ⟨t!"aircraft:wing:characteristic_length", t!"ft", .missing, .float, false, false⟩,
  ⟨t!"aircraft:wing:choose_fold_location", t!"unitless", .bool, .bool, false, true⟩,
  ⟨t!"aircraft:wing:chord_per_semispan_distribution", t!"unitless", .float, .float, true, false⟩,
  ⟨t!"aircraft:wing:composite_fraction", t!"unitless", .missing, .float, false, false⟩,
  ⟨t!"aircraft:wing:control_surface_area", t!"ft**2", .missing, .float, false, false⟩,
  ⟨t!"aircraft:wing:control_surface_area_ratio", t!"unitless", .missing, .float, false, false⟩,
  ⟨t!"aircraft:wing:detailed_wing", t!"unitless", .bool, .bool, false, true⟩,
  ⟨t!"aircraft:wing:dihedral", t!"deg", .missing, .float, false, false⟩,
  ⟨t!"aircraft:wing:drag_factor", t!"unitless", .missing, .float, false, false⟩,
  ⟨t!"aircraft:wing:eng_pod_inertia_factor", t!"unitless", .missing, .float, false, false⟩,
  ⟨t!"aircraft:wing:exposed_area", t!"ft**2", .missing, .float, false, false⟩,
  ⟨t!"aircraft:wing:fineness", t!"unitless", .missing, .float, false, false⟩,
  ⟨t!"aircraft:wing:flap_chord_ratio", t!"unitless", .missing, .float, false, false⟩,
  ⟨t!"aircraft:wing:flap_deflection_landing", t!"deg", .missing, .float, false, false⟩,
  ⟨t!"aircraft:wing:flap_deflection_takeoff", t!"deg", .missing, .float, false, false⟩,
  ⟨t!"aircraft:wing:flap_drag_increment_optimum", t!"unitless", .missing, .float, false, false⟩,
  ⟨t!"aircraft:wing:flap_lift_increment_optimum", t!"unitless", .missing, .float, false, false⟩,
  ⟨t!"aircraft:wing:flap_span_ratio", t!"unitless", .missing, .float, false, false⟩,
  ⟨t!"aircraft:wing:flap_type", t!"unitless", .enum, .enum, true, true⟩,
  ⟨t!"aircraft:wing:fold_dimensional_location_specified", t!"unitless", .bool, .bool, false, true⟩,
  ⟨t!"aircraft:wing:fold_mass", t!"lbm", .missing, .int, false, false⟩,
  ⟨t!"aircraft:wing:fold_mass_coefficient", t!"unitless", .missing, .int, false, false⟩,
  ⟨t!"aircraft:wing:folded_span", t!"ft", .missing, .int, false, false⟩,
  ⟨t!"aircraft:wing:folded_span_dimensionless", t!"unitless", .missing, .int, false, false⟩,
  ⟨t!"aircraft:wing:folding_area", t!"ft**2", .missing, .float, false, false⟩,
  ⟨t!"aircraft:wing:form_factor", t!"unitless", .missing, .float, false, false⟩,
  ⟨t!"aircraft:wing:fuselage_interference_factor", t!"unitless", .missing, .float, false, false⟩,
  ⟨t!"aircraft:wing:glove_and_bat", t!"ft**2", .missing, .float, false, false⟩,
  ⟨t!"aircraft:wing:has_fold", t!"unitless", .bool, .bool, false, true⟩,
  ⟨t!"aircraft:wing:has_strut", t!"unitless", .bool, .bool, false, true⟩,
  ⟨t!"aircraft:wing:height", t!"ft", .missing, .float, false, false⟩,
  ⟨t!"aircraft:wing:high_lift_mass", t!"lbm", .missing, .float, false, false⟩,
  ⟨t!"aircraft:wing:high_lift_mass_coefficient", t!"unitless", .missing, .float, false, false⟩,
  ⟨t!"aircraft:wing:incidence", t!"deg", .missing, .float, false, false⟩,
  ⟨t!"aircraft:wing:input_station_distribution", t!"unitless", .float, .float, true, true⟩,
  ⟨t!"aircraft:wing:laminar_flow_lower", t!"unitless", .missing, .float, false, false⟩,
  ⟨t!"aircraft:wing:laminar_flow_upper", t!"unitless", .missing, .float, false, false⟩,
  ⟨t!"aircraft:wing:leading_edge_sweep", t!"rad", .missing, .float, false, false⟩,
  ⟨t!"aircraft:wing:load_distribution_control", t!"unitless", .missing, .float, false, true⟩,
  ⟨t!"aircraft:wing:load_fraction", t!"unitless", .missing, .float, false, false⟩,
  ⟨t!"aircraft:wing:load_path_sweep_distribution", t!"deg", .float, .float, true, false⟩,
  ⟨t!"aircraft:wing:loading_above_20", t!"unitless", .bool, .bool, false, true⟩,
  ⟨t!"aircraft:wing:mass", t!"lbm", .missing, .float, false, false⟩,
  ⟨t!"aircraft:wing:mass_coefficient", t!"unitless", .missing, .float, false, false⟩,
  ⟨t!"aircraft:wing:mass_scaler", t!"unitless", .missing, .float, false, false⟩,
  ⟨t!"aircraft:wing:material_factor", t!"unitless", .missing, .int, false, false⟩,
  ⟨t!"aircraft:wing:max_camber_at_70_semispan", t!"unitless", .missing, .float, false, false⟩,
  ⟨t!"aircraft:wing:max_lift_ref", t!"unitless", .missing, .float, false, false⟩,
  ⟨t!"aircraft:wing:max_slat_deflection_landing", t!"deg", .missing, .int, false, false⟩,
  ⟨t!"aircraft:wing:max_slat_deflection_takeoff", t!"deg", .missing, .int, false, false⟩,
  ⟨t!"aircraft:wing:max_thickness_location", t!"unitless", .missing, .float, false, false⟩,
  ⟨t!"aircraft:wing:min_pressure_location", t!"unitless", .missing, .float, false, false⟩,
  ⟨t!"aircraft:wing:misc_mass", t!"lbm", .missing, .float, false, false⟩,
  ⟨t!"aircraft:wing:misc_mass_scaler", t!"unitless", .missing, .float, false, false⟩,
  ⟨t!"aircraft:wing:num_flap_segments", t!"unitless", .int, .int, false, true⟩,
  ⟨t!"aircraft:wing:num_integration_stations", t!"unitless", .int, .int, false, true⟩,
  ⟨t!"aircraft:wing:optimum_flap_deflection", t!"deg", .missing, .float, false, false⟩,
  ⟨t!"aircraft:wing:optimum_slat_deflection", t!"deg", .missing, .int, false, false⟩,
  ⟨t!"aircraft:wing:outboard_semispan", t!"ft", .missing, .float, false, false⟩,
  ⟨t!"aircraft:wing:root_chord", t!"ft", .missing, .float, false, false⟩,
  ⟨t!"aircraft:wing:shear_control_mass", t!"lbm", .missing, .float, false, false⟩,
  ⟨t!"aircraft:wing:shear_control_mass_scaler", t!"unitless", .missing, .float, false, false⟩,
  ⟨t!"aircraft:wing:slat_chord_ratio", t!"unitless", .missing, .float, false, false⟩,
  ⟨t!"aircraft:wing:slat_lift_increment_optimum", t!"unitless", .missing, .float, false, false⟩,
  ⟨t!"aircraft:wing:slat_span_ratio", t!"unitless", .missing, .float, false, false⟩]

/-- aviary/variable_info/variable_meta_data.py:6016-6940. -/
def part6 : List Row := [
  ⟨t!"aircraft:wing:span", t!"ft", .missing, .float, false, false⟩,
  ⟨t!"aircraft:wing:span_efficiency_factor", t!"unitless", .missing, .float, false, false⟩,
  ⟨t!"aircraft:wing:span_efficiency_reduction", t!"unitless", .bool, .bool, false, true⟩,
  ⟨t!"aircraft:wing:strut_bracing_factor", t!"unitless", .missing, .float, false, false⟩,
  ⟨t!"aircraft:wing:surface_control_mass", t!"lbm", .missing, .float, false, false⟩,
  ⟨t!"aircraft:wing:surface_control_mass_coefficient", t!"unitless", .missing, .float, false, false⟩,
  ⟨t!"aircraft:wing:surface_control_mass_scaler", t!"unitless", .missing, .float, false, false⟩,
  ⟨t!"aircraft:wing:sweep", t!"deg", .missing, .float, false, false⟩,
  ⟨t!"aircraft:wing:taper_ratio", t!"unitless", .missing, .float, false, false⟩,
  ⟨t!"aircraft:wing:thickness_to_chord", t!"unitless", .missing, .float, false, false⟩,
  ⟨t!"aircraft:wing:thickness_to_chord_distribution", t!"unitless", .float, .float, true, false⟩,
  ⟨t!"aircraft:wing:thickness_to_chord_reference", t!"unitless", .missing, .float, false, false⟩,
  ⟨t!"aircraft:wing:thickness_to_chord_root", t!"unitless", .missing, .float, false, false⟩,
  ⟨t!"aircraft:wing:thickness_to_chord_tip", t!"unitless", .missing, .float, false, false⟩,
  ⟨t!"aircraft:wing:thickness_to_chord_unweighted", t!"unitless", .missing, .float, false, false⟩,
  ⟨t!"aircraft:wing:ultimate_load_factor", t!"unitless", .missing, .float, false, false⟩,
  ⟨t!"aircraft:wing:var_sweep_mass_penalty", t!"unitless", .missing, .float, false, false⟩,
  ⟨t!"aircraft:wing:vertical_mount_location", t!"unitless", .missing, .float, false, false⟩,
  ⟨t!"aircraft:wing:wetted_area", t!"ft**2", .missing, .float, false, false⟩,
  ⟨t!"aircraft:wing:wetted_area_scaler", t!"unitless", .missing, .float, false, false⟩,
  ⟨t!"aircraft:wing:zero_lift_angle", t!"deg", .missing, .float, false, false⟩,
  ⟨t!"density", t!"lbm/ft**3", .missing, .float, true, false⟩,
  ⟨t!"dynamic_pressure", t!"lbf/ft**2", .missing, .float, true, false⟩,
  ⟨t!"dynamic_viscosity", t!"lbf*s/ft**2", .missing, .float, true, false⟩,
  ⟨t!"kinematic_viscosity", t!"ft**2/s", .missing, .float, true, false⟩,
  ⟨t!"mach", t!"unitless", .missing, .float, true, false⟩,
  ⟨t!"mach_rate", t!"unitless", .missing, .float, true, false⟩,
  ⟨t!"speed_of_sound", t!"ft/s", .missing, .float, true, false⟩,
  ⟨t!"static_pressure", t!"lbf/ft**2", .missing, .float, true, false⟩,
  ⟨t!"temperature", t!"degR", .missing, .float, true, false⟩,
  ⟨t!"altitude", t!"ft", .missing, .float, true, false⟩,
  ⟨t!"altitude_rate", t!"ft/s", .missing, .float, true, false⟩,
  ⟨t!"altitude_rate_max", t!"ft/s", .missing, .float, true, false⟩,
  ⟨t!"distance", t!"NM", .missing, .float, true, false⟩,
  ⟨t!"distance_rate", t!"NM/s", .missing, .float, true, false⟩,
  ⟨t!"flight_path_angle", t!"rad", .missing, .float, true, false⟩,
  ⟨t!"flight_path_angle_rate", t!"rad/s", .missing, .float, true, false⟩,
  ⟨t!"specific_energy", t!"m/s", .missing, .float, true, false⟩,
  ⟨t!"specific_energy_rate", t!"m/s", .missing, .float, true, false⟩,
  ⟨t!"specific_energy_rate_excess", t!"m/s", .missing, .float, true, false⟩,
  ⟨t!"velocity", t!"ft/s", .missing, .float, true, false⟩,
  ⟨t!"velocity_rate", t!"ft/s**2", .missing, .float, true, false⟩,
  ⟨t!"angle_of_attack", t!"deg", .missing, .float, true, false⟩,
  ⟨t!"battery_state_of_charge", t!"unitless", .missing, .float, true, false⟩,
  ⟨t!"cumulative_electric_energy_used", t!"kJ", .missing, .float, true, false⟩,
  ⟨t!"drag", t!"lbf", .missing, .float, true, false⟩,
  ⟨t!"drag_coefficient", t!"unitless", .missing, .float, true, false⟩,
  ⟨t!"lift", t!"lbf", .missing, .float, true, false⟩,
  ⟨t!"lift_coefficient", t!"unitless", .missing, .float, true, false⟩,
  ⟨t!"mass", t!"lbm", .missing, .float, true, false⟩,
  ⟨t!"mass_rate", t!"lbm/s", .missing, .float, true, false⟩,
  ⟨t!"electric_power_in", t!"kW", .missing, .float, true, false⟩,
  ⟨t!"electric_power_in_total", t!"kW", .missing, .float, true, false⟩,
  ⟨t!"fuel_flow_rate", t!"lbm/h", .missing, .float, true, false⟩,
  ⟨t!"fuel_flow_rate_negative", t!"lbm/h", .missing, .float, true, false⟩,
  ⟨t!"fuel_flow_rate_negative_total", t!"lbm/h", .missing, .float, true, false⟩,
  ⟨t!"fuel_flow_rate_total", t!"lbm/h", .missing, .float, true, false⟩,
  ⟨t!"hybrid_throttle", t!"unitless", .missing, .float, true, false⟩,
  ⟨t!"nox_rate", t!"lbm/h", .missing, .float, true, false⟩,
  ⟨t!"nox_rate_total", t!"lbm/h", .missing, .float, true, false⟩,
  ⟨t!"propeller_tip_speed", t!"ft/s", .missing, .float, true, false⟩,
  ⟨t!"rotations_per_minute", t!"rpm", .missing, .float, true, false⟩,
  ⟨t!"shaft_power", t!"hp", .missing, .float, true, false⟩,
  ⟨t!"shaft_power_max", t!"hp", .missing, .float, true, false⟩,
  ⟨t!"t4", t!"degR", .missing, .float, true, false⟩,
  ⟨t!"throttle", t!"unitless", .missing, .float, true, false⟩,
  ⟨t!"thrust_net", t!"lbf", .missing, .float, true, false⟩,
  ⟨t!"thrust_net_max", t!"lbf", .missing, .float, true, false⟩,
  ⟨t!"thrust_net_max_total", t!"lbf", .missing, .float, true, false⟩,
  ⟨t!"thrust_net_total", t!"lbf", .missing, .float, true, false⟩,
  ⟨t!"torque", t!"N*m", .missing, .float, true, false⟩,
  ⟨t!"torque_max", t!"N*m", .missing, .float, true, false⟩,
  ⟨t!"mission:block_fuel_mass", t!"lbm", .missing, .float, false, false⟩,
  ⟨t!"mission:final_mass", t!"lbm", .missing, .float, false, false⟩,
  ⟨t!"mission:final_time", t!"min", .missing, .float, false, false⟩,
  ⟨t!"mission:fuel_mass", t!"lbm", .missing, .float, false, false⟩,
  ⟨t!"mission:gravity", t!"m/s**2", .float, .float, false, true⟩,
  ⟨t!"mission:gross_mass", t!"lbm", .missing, .float, false, false⟩,
  ⟨t!"mission:operating_items_mass", t!"lbm", .missing, .float, false, false⟩,
  ⟨t!"mission:operating_items_mass_additional", t!"lbm", .missing, .float, false, false⟩]

/-- aviary/variable_info/variable_meta_data.py:6942-7820. -/
def part7 : List Row := [
  ⟨t!"mission:operating_mass", t!"lbm", .missing, .float, false, false⟩,
  ⟨t!"mission:range", t!"NM", .missing, .float, false, false⟩,
  ⟨t!"mission:reserve_fuel_margin", t!"unitless", .missing, .float, false, true⟩,
  ⟨t!"mission:reserve_fuel_mass", t!"lbm", .missing, .float, false, false⟩,
  ⟨t!"mission:reserve_fuel_mass_additional", t!"lbm", .missing, .float, false, true⟩,
  ⟨t!"mission:sea_level_density", t!"kg/m**3", .float, .float, false, true⟩,
  ⟨t!"mission:total_fuel_mass", t!"lbm", .missing, .float, false, false⟩,
  ⟨t!"mission:total_reserve_fuel_mass", t!"lbm", .missing, .float, false, false⟩,
  ⟨t!"mission:zero_fuel_mass", t!"lbm", .missing, .float, false, false⟩,
  ⟨t!"mission:constraints:excess_fuel_mass_capacity", t!"lbm", .missing, .float, false, false⟩,
  ⟨t!"mission:constraints:gearbox_shaft_power_residual", t!"kW", .missing, .float, false, false⟩,
  ⟨t!"mission:constraints:mass_residual", t!"lbm", .missing, .float, false, false⟩,
  ⟨t!"mission:constraints:max_mach", t!"unitless", .missing, .float, false, true⟩,
  ⟨t!"mission:constraints:range_residual", t!"NM", .missing, .float, false, false⟩,
  ⟨t!"mission:constraints:range_residual_reserve", t!"NM", .missing, .float, false, false⟩,
  ⟨t!"mission:landing:airport_altitude", t!"ft", .missing, .int, false, false⟩,
  ⟨t!"mission:landing:braking_delay", t!"s", .missing, .int, false, false⟩,
  ⟨t!"mission:landing:braking_friction_coefficient", t!"unitless", .missing, .float, false, false⟩,
  ⟨t!"mission:landing:drag_coefficient_flap_increment", t!"unitless", .missing, .float, false, false⟩,
  ⟨t!"mission:landing:drag_coefficient_min", t!"unitless", .missing, .float, false, false⟩,
  ⟨t!"mission:landing:field_length", t!"ft", .missing, .float, false, false⟩,
  ⟨t!"mission:landing:flare_rate", t!"deg/s", .missing, .float, false, false⟩,
  ⟨t!"mission:landing:glide_to_stall_ratio", t!"unitless", .missing, .float, false, false⟩,
  ⟨t!"mission:landing:ground_distance", t!"ft", .missing, .float, false, false⟩,
  ⟨t!"mission:landing:initial_altitude", t!"ft", .missing, .float, false, false⟩,
  ⟨t!"mission:landing:initial_mach", t!"unitless", .missing, .float, false, false⟩,
  ⟨t!"mission:landing:initial_velocity", t!"ft/s", .missing, .float, false, false⟩,
  ⟨t!"mission:landing:lift_coefficient_flap_increment", t!"unitless", .missing, .float, false, false⟩,
  ⟨t!"mission:landing:lift_coefficient_max", t!"unitless", .missing, .float, false, false⟩,
  ⟨t!"mission:landing:maximum_flare_load_factor", t!"unitless", .missing, .float, false, false⟩,
  ⟨t!"mission:landing:maximum_sink_rate", t!"ft/min", .missing, .int, false, false⟩,
  ⟨t!"mission:landing:obstacle_height", t!"ft", .missing, .int, false, false⟩,
  ⟨t!"mission:landing:rolling_friction_coefficient", t!"unitless", .missing, .float, false, false⟩,
  ⟨t!"mission:landing:spoiler_drag_coefficient", t!"unitless", .missing, .float, false, false⟩,
  ⟨t!"mission:landing:spoiler_lift_coefficient", t!"unitless", .missing, .float, false, false⟩,
  ⟨t!"mission:landing:stall_velocity", t!"ft/s", .missing, .float, false, false⟩,
  ⟨t!"mission:landing:touchdown_mass", t!"lbm", .missing, .float, false, false⟩,
  ⟨t!"mission:landing:touchdown_sink_rate", t!"ft/s", .missing, .int, false, false⟩,
  ⟨t!"mission:objectives:fuel", t!"unitless", .missing, .float, false, false⟩,
  ⟨t!"mission:objectives:range", t!"unitless", .missing, .float, false, false⟩,
  ⟨t!"mission:takeoff:airport_altitude", t!"ft", .missing, .float, false, false⟩,
  ⟨t!"mission:takeoff:angle_of_attack_runway", t!"deg", .missing, .float, false, true⟩,
  ⟨t!"mission:takeoff:ascent_duration", t!"s", .missing, .float, false, false⟩,
  ⟨t!"mission:takeoff:ascent_t_initial", t!"s", .missing, .int, false, false⟩,
  ⟨t!"mission:takeoff:braking_friction_coefficient", t!"unitless", .missing, .float, false, false⟩,
  ⟨t!"mission:takeoff:climbout_thrust_fraction", t!"unitless", .missing, .int, false, false⟩,
  ⟨t!"mission:takeoff:decision_speed_increment", t!"kn", .missing, .int, false, false⟩,
  ⟨t!"mission:takeoff:drag_coefficient_flap_increment", t!"unitless", .missing, .float, false, false⟩,
  ⟨t!"mission:takeoff:drag_coefficient_min", t!"unitless", .missing, .float, false, false⟩,
  ⟨t!"mission:takeoff:field_length", t!"ft", .missing, .float, false, false⟩,
  ⟨t!"mission:takeoff:final_altitude", t!"ft", .missing, .float, false, false⟩,
  ⟨t!"mission:takeoff:final_mach", t!"unitless", .missing, .float, false, false⟩,
  ⟨t!"mission:takeoff:final_mass", t!"lbm", .missing, .float, false, false⟩,
  ⟨t!"mission:takeoff:final_velocity", t!"m/s", .missing, .float, false, false⟩,
  ⟨t!"mission:takeoff:fuel_mass", t!"lbm", .missing, .float, false, false⟩,
  ⟨t!"mission:takeoff:ground_distance", t!"ft", .missing, .float, false, false⟩,
  ⟨t!"mission:takeoff:lift_coefficient_flap_increment", t!"unitless", .missing, .float, false, false⟩,
  ⟨t!"mission:takeoff:lift_coefficient_max", t!"unitless", .missing, .float, false, false⟩,
  ⟨t!"mission:takeoff:lift_over_drag", t!"unitless", .missing, .float, false, false⟩,
  ⟨t!"mission:takeoff:obstacle_height", t!"ft", .missing, .float, false, true⟩,
  ⟨t!"mission:takeoff:rolling_friction_coefficient", t!"unitless", .missing, .float, false, false⟩,
  ⟨t!"mission:takeoff:rotation_speed_increment", t!"kn", .missing, .int, false, false⟩,
  ⟨t!"mission:takeoff:rotation_velocity", t!"kn", .missing, .float, false, false⟩,
  ⟨t!"mission:takeoff:spoiler_drag_coefficient", t!"unitless", .missing, .float, false, false⟩,
  ⟨t!"mission:takeoff:spoiler_lift_coefficient", t!"unitless", .missing, .float, false, false⟩,
  ⟨t!"mission:takeoff:thrust_incidence", t!"deg", .missing, .float, false, true⟩,
  ⟨t!"mission:taxi:duration", t!"h", .missing, .float, false, true⟩,
  ⟨t!"mission:taxi:fuel_mass_taxi_in", t!"lbm", .missing, .float, false, false⟩,
  ⟨t!"mission:taxi:fuel_mass_taxi_out", t!"lbm", .missing, .float, false, false⟩,
  ⟨t!"mission:taxi:mach", t!"unitless", .missing, .float, false, false⟩,
  ⟨t!"settings:aerodynamics_method", t!"unitless", .enum, .missing, false, true⟩,
  ⟨t!"settings:atmosphere_model", t!"unitless", .enum, .enum, false, true⟩,
  ⟨t!"settings:equations_of_motion", t!"unitless", .enum, .missing, false, true⟩,
  ⟨t!"settings:mass_method", t!"unitless", .enum, .missing, false, true⟩,
  ⟨t!"settings:payload_range", t!"unitless", .bool, .bool, false, true⟩,
  ⟨t!"settings:problem_type", t!"unitless", .enum, .missing, false, true⟩,
  ⟨t!"settings:verbosity", t!"unitless", .enum, .enum, false, true⟩]

/-- All calls, aviary/variable_info/variable_meta_data.py:1-7828. -/
def table : List Row := part0 ++ part1 ++ part2 ++ part3 ++ part4 ++ part5 ++ part6 ++ part7

/-- The values of the attributes of the hierarchy classes (listed in the order of the metadata, any without metadata last), aviary/variable_info/variables.py:1-783. -/
def vars0 : List Text := [
  t!"aircraft:air_conditioning:mass",
  t!"aircraft:air_conditioning:mass_coefficient",
  t!"aircraft:air_conditioning:mass_scaler",
  t!"aircraft:anti_icing:mass",
  t!"aircraft:anti_icing:mass_scaler",
  t!"aircraft:apu:mass",
  t!"aircraft:apu:mass_scaler",
  t!"aircraft:avionics:mass",
  t!"aircraft:avionics:mass_scaler",
  t!"aircraft:battery:additional_mass",
  t!"aircraft:battery:discharge_limit",
  t!"aircraft:battery:efficiency",
  t!"aircraft:battery:energy_capacity",
  t!"aircraft:battery:mass",
  t!"aircraft:battery:pack_energy_density",
  t!"aircraft:battery:pack_mass",
  t!"aircraft:battery:pack_volumetric_density",
  t!"aircraft:battery:volume",
  t!"aircraft:blended_wing_body_design:detailed_wing_provided",
  t!"aircraft:blended_wing_body_design:max_bay_width",
  t!"aircraft:blended_wing_body_design:max_num_bays",
  t!"aircraft:blended_wing_body_design:num_bays",
  t!"aircraft:blended_wing_body_design:passenger_leading_edge_sweep",
  t!"aircraft:blended_wing_body_design:rear_spar_percent_chord_centerline",
  t!"aircraft:blended_wing_body_design:rear_spar_percent_chord_root",
  t!"aircraft:blended_wing_body_design:wing_root_index",
  t!"aircraft:canard:area",
  t!"aircraft:canard:aspect_ratio",
  t!"aircraft:canard:characteristic_length",
  t!"aircraft:canard:fineness",
  t!"aircraft:canard:laminar_flow_lower",
  t!"aircraft:canard:laminar_flow_upper",
  t!"aircraft:canard:mass",
  t!"aircraft:canard:mass_scaler",
  t!"aircraft:canard:taper_ratio",
  t!"aircraft:canard:thickness_to_chord",
  t!"aircraft:canard:wetted_area",
  t!"aircraft:canard:wetted_area_scaler",
  t!"aircraft:controls:cockpit_control_mass",
  t!"aircraft:controls:cockpit_control_mass_scaler",
  t!"aircraft:controls:control_mass_increment",
  t!"aircraft:controls:mass",
  t!"aircraft:controls:stability_augmentation_system_mass",
  t!"aircraft:controls:stability_augmentation_system_mass_scaler",
  t!"aircraft:controls:stability_augmentation_system_reference_mass",
  t!"aircraft:crew_and_payload:baggage_mass",
  t!"aircraft:crew_and_payload:baggage_mass_per_passenger",
  t!"aircraft:crew_and_payload:cabin_crew_mass",
  t!"aircraft:crew_and_payload:cabin_crew_mass_scaler",
  t!"aircraft:crew_and_payload:cargo_container_mass",
  t!"aircraft:crew_and_payload:cargo_container_mass_scaler",
  t!"aircraft:crew_and_payload:cargo_mass",
  t!"aircraft:crew_and_payload:catering_items_mass_per_passenger",
  t!"aircraft:crew_and_payload:flight_crew_mass",
  t!"aircraft:crew_and_payload:flight_crew_mass_scaler",
  t!"aircraft:crew_and_payload:mass_per_passenger",
  t!"aircraft:crew_and_payload:mass_per_passenger_with_bags",
  t!"aircraft:crew_and_payload:misc_cargo",
  t!"aircraft:crew_and_payload:num_business_class",
  t!"aircraft:crew_and_payload:num_cabin_crew",
  t!"aircraft:crew_and_payload:num_economy_class",
  t!"aircraft:crew_and_payload:num_first_class",
  t!"aircraft:crew_and_payload:num_flight_attendants",
  t!"aircraft:crew_and_payload:num_flight_crew",
  t!"aircraft:crew_and_payload:num_galley_crew",
  t!"aircraft:crew_and_payload:num_passengers",
  t!"aircraft:crew_and_payload:passenger_mass_total",
  t!"aircraft:crew_and_payload:passenger_payload_mass",
  t!"aircraft:crew_and_payload:passenger_service_mass",
  t!"aircraft:crew_and_payload:passenger_service_mass_per_passenger",
  t!"aircraft:crew_and_payload:passenger_service_mass_scaler",
  t!"aircraft:crew_and_payload:total_payload_mass",
  t!"aircraft:crew_and_payload:uld_mass_per_passenger",
  t!"aircraft:crew_and_payload:water_mass_per_occupant",
  t!"aircraft:crew_and_payload:wing_cargo",
  t!"aircraft:crew_and_payload:design:cargo_mass",
  t!"aircraft:crew_and_payload:design:max_cargo_mass",
  t!"aircraft:crew_and_payload:design:num_business_class",
  t!"aircraft:crew_and_payload:design:num_economy_class",
  t!"aircraft:crew_and_payload:design:num_first_class"]

/-- Continuation, aviary/variable_info/variables.py:1-783. -/
def vars1 : List Text := [
  t!"aircraft:crew_and_payload:design:num_passengers",
  t!"aircraft:crew_and_payload:design:num_seats_abreast_business",
  t!"aircraft:crew_and_payload:design:num_seats_abreast_economy",
  t!"aircraft:crew_and_payload:design:num_seats_abreast_first",
  t!"aircraft:crew_and_payload:design:seat_pitch_business",
  t!"aircraft:crew_and_payload:design:seat_pitch_economy",
  t!"aircraft:crew_and_payload:design:seat_pitch_first",
  t!"aircraft:design:base_area",
  t!"aircraft:design:cg_delta",
  t!"aircraft:design:characteristic_lengths",
  t!"aircraft:design:cockpit_control_mass_coefficient",
  t!"aircraft:design:compressibility_drag_factor",
  t!"aircraft:design:compute_htail_volume_coeff",
  t!"aircraft:design:compute_vtail_volume_coeff",
  t!"aircraft:design:cruise_altitude",
  t!"aircraft:design:cruise_mach",
  t!"aircraft:design:drag_coefficient_increment",
  t!"aircraft:design:drag_divergence_shift",
  t!"aircraft:design:drag_polar",
  t!"aircraft:design:emergency_equipment_mass",
  t!"aircraft:design:empennage_mass",
  t!"aircraft:design:empty_mass",
  t!"aircraft:design:empty_mass_margin",
  t!"aircraft:design:empty_mass_margin_scaler",
  t!"aircraft:design:excrescence_drag_factor",
  t!"aircraft:design:external_subsystems_mass",
  t!"aircraft:design:fineness",
  t!"aircraft:design:gross_mass",
  t!"ijeff",
  t!"aircraft:design:interference_drag_factor",
  t!"aircraft:design:laminar_flow_lower",
  t!"aircraft:design:laminar_flow_upper",
  t!"aircraft:design:landing_to_takeoff_mass_ratio",
  t!"aircraft:design:lift_coefficient",
  t!"aircraft:design:lift_coefficient_max_flaps_up",
  t!"aircraft:design:lift_curve_slope",
  t!"aircraft:design:lift_dependent_drag_coeff_factor",
  t!"aircraft:design:lift_dependent_drag_polar",
  t!"aircraft:design:lift_independent_drag_polar",
  t!"aircraft:design:lift_polar",
  t!"aircraft:design:mach",
  t!"aircraft:design:max_fuselage_pitch_angle",
  t!"aircraft:design:max_structural_speed",
  t!"aircraft:design:part25_structural_category",
  t!"aircraft:design:percent_excrescence_drag",
  t!"aircraft:design:range",
  t!"aircraft:design:smooth_mass_discontinuities",
  t!"aircraft:design:static_margin",
  t!"aircraft:design:structural_mass_increment",
  t!"aircraft:design:structure_mass",
  t!"aircraft:design:subsonic_drag_coeff_factor",
  t!"aircraft:design:supersonic_drag_coeff_factor",
  t!"aircraft:design:systems_and_equipment_mass",
  t!"aircraft:design:systems_and_equipment_mass_base",
  t!"aircraft:design:thrust_to_weight_ratio",
  t!"aircraft:design:total_wetted_area",
  t!"aircraft:design:touchdown_mass_max",
  t!"aircraft:design:type",
  t!"aircraft:design:ulf_calculated_from_maneuver",
  t!"aircraft:design:use_alt_mass",
  t!"aircraft:design:useful_load_mass",
  t!"aircraft:design:wetted_areas",
  t!"aircraft:design:wing_loading",
  t!"aircraft:design:zero_lift_drag_coeff_factor",
  t!"aircraft:electrical:has_hybrid_system",
  t!"aircraft:electrical:hybrid_cable_length",
  t!"aircraft:electrical:mass",
  t!"aircraft:electrical:mass_scaler",
  t!"aircraft:electrical:system_mass_per_passenger",
  t!"aircraft:engine:additional_mass",
  t!"aircraft:engine:additional_mass_fraction",
  t!"aircraft:engine:constant_fuel_mass_consumption",
  t!"aircraft:engine:data_file",
  t!"aircraft:engine:fixed_rpm",
  t!"aircraft:engine:flight_idle_max_fraction",
  t!"aircraft:engine:flight_idle_min_fraction",
  t!"aircraft:engine:flight_idle_thrust_fraction",
  t!"aircraft:engine:fuel_flow_scaler_constant_term",
  t!"aircraft:engine:fuel_flow_scaler_linear_term",
  t!"aircraft:engine:generate_flight_idle"]

/-- Continuation, aviary/variable_info/variables.py:1-783. -/
def vars2 : List Text := [
  t!"aircraft:engine:geopotential_alt",
  t!"aircraft:engine:global_hybrid_throttle",
  t!"aircraft:engine:global_throttle",
  t!"aircraft:engine:ignore_negative_thrust",
  t!"aircraft:engine:inlet_area_coefficient",
  t!"aircraft:engine:interpolation_method",
  t!"aircraft:engine:interpolation_sort",
  t!"aircraft:engine:mass",
  t!"aircraft:engine:mass_scaler",
  t!"aircraft:engine:mass_specific",
  t!"aircraft:engine:num_engines",
  t!"aircraft:engine:num_fuselage_engines",
  t!"aircraft:engine:num_wing_engines",
  t!"aircraft:engine:pod_mass",
  t!"aircraft:engine:pod_mass_scaler",
  t!"aircraft:engine:pylon_factor",
  t!"aircraft:engine:reference_mass",
  t!"aircraft:engine:reference_sls_thrust",
  t!"aircraft:engine:rpm_design",
  t!"aircraft:engine:scale_factor",
  t!"aircraft:engine:scale_mass",
  t!"aircraft:engine:scaled_sls_thrust",
  t!"aircraft:engine:subsonic_fuel_flow_scaler",
  t!"aircraft:engine:supersonic_fuel_flow_scaler",
  t!"aircraft:engine:thrust_reversers_mass",
  t!"aircraft:engine:thrust_reversers_mass_scaler",
  t!"aircraft:engine:type",
  t!"aircraft:engine:wing_locations",
  t!"aircraft:engine:gearbox:efficiency",
  t!"aircraft:engine:gearbox:gear_ratio",
  t!"aircraft:engine:gearbox:mass",
  t!"aircraft:engine:gearbox:shaft_power_design",
  t!"aircraft:engine:gearbox:specific_torque",
  t!"aircraft:engine:motor:data_file",
  t!"aircraft:engine:motor:mass",
  t!"aircraft:engine:motor:torque_max",
  t!"aircraft:engine:propeller:activity_factor",
  t!"aircraft:engine:propeller:compute_installation_loss",
  t!"aircraft:engine:propeller:data_file",
  t!"aircraft:engine:propeller:diameter",
  t!"aircraft:engine:propeller:integrated_lift_coefficient",
  t!"aircraft:engine:propeller:mass",
  t!"aircraft:engine:propeller:num_blades",
  t!"aircraft:engine:propeller:tip_mach_max",
  t!"aircraft:engine:propeller:tip_speed_max",
  t!"aircraft:fins:area",
  t!"aircraft:fins:mass",
  t!"aircraft:fins:mass_scaler",
  t!"aircraft:fins:num_fins",
  t!"aircraft:fins:taper_ratio",
  t!"aircraft:fuel:auxiliary_fuel_mass_capacity",
  t!"aircraft:fuel:density",
  t!"aircraft:fuel:fuel_system_mass",
  t!"aircraft:fuel:fuel_system_mass_coefficient",
  t!"aircraft:fuel:fuel_system_mass_scaler",
  t!"aircraft:fuel:fuselage_fuel_mass_capacity",
  t!"aircraft:fuel:ignore_fuel_capacity_constraint",
  t!"aircraft:fuel:max_capacity_mass",
  t!"aircraft:fuel:max_capacity_volume",
  t!"aircraft:fuel:num_tanks",
  t!"aircraft:fuel:unusable_fuel_mass",
  t!"aircraft:fuel:unusable_fuel_mass_coefficient",
  t!"aircraft:fuel:unusable_fuel_mass_scaler",
  t!"aircraft:fuel:volume_margin",
  t!"aircraft:fuel:wing_fuel_fraction",
  t!"aircraft:fuel:wing_fuel_mass_capacity",
  t!"aircraft:fuel:wing_volume_design",
  t!"aircraft:fuel:wing_volume_geometric_max",
  t!"aircraft:fuel:wing_volume_structural_max",
  t!"aircraft:furnishings:mass",
  t!"aircraft:furnishings:mass_base",
  t!"aircraft:furnishings:mass_scaler",
  t!"aircraft:furnishings:use_empirical_equation",
  t!"aircraft:fuselage:aftbody_mass",
  t!"aircraft:fuselage:aftbody_mass_per_unit_area",
  t!"aircraft:fuselage:aisle_width",
  t!"aircraft:fuselage:avg_diameter",
  t!"aircraft:fuselage:cabin_area",
  t!"aircraft:fuselage:cabin_sidewall_length_min",
  t!"aircraft:fuselage:characteristic_length"]

/-- Continuation, aviary/variable_info/variables.py:1-783. -/
def vars3 : List Text := [
  t!"aircraft:fuselage:cross_section",
  t!"aircraft:fuselage:delta_diameter",
  t!"aircraft:fuselage:diameter_to_wing_span",
  t!"aircraft:fuselage:drag_factor",
  t!"aircraft:fuselage:fineness",
  t!"aircraft:fuselage:flat_plate_area_increment",
  t!"aircraft:fuselage:forebody_mass",
  t!"aircraft:fuselage:form_factor",
  t!"aircraft:fuselage:height_to_width_ratio",
  t!"aircraft:fuselage:hydraulic_diameter",
  t!"aircraft:fuselage:laminar_flow_lower",
  t!"aircraft:fuselage:laminar_flow_upper",
  t!"aircraft:fuselage:length",
  t!"aircraft:fuselage:length_to_diameter",
  t!"aircraft:fuselage:lift_coefficient_ratio_body_to_wing",
  t!"aircraft:fuselage:lift_curve_slope_mach0",
  t!"aircraft:fuselage:mass",
  t!"aircraft:fuselage:mass_coefficient",
  t!"aircraft:fuselage:mass_scaler",
  t!"aircraft:fuselage:max_height",
  t!"aircraft:fuselage:max_width",
  t!"aircraft:fuselage:military_cargo_floor",
  t!"aircraft:fuselage:nose_fineness",
  t!"aircraft:fuselage:num_aisles",
  t!"aircraft:fuselage:num_fuselages",
  t!"aircraft:fuselage:passenger_compartment_length",
  t!"aircraft:fuselage:pilot_compartment_length",
  t!"aircraft:fuselage:planform_area",
  t!"aircraft:fuselage:pressure_differential",
  t!"aircraft:fuselage:pressurized_width_additional",
  t!"aircraft:fuselage:ref_diameter",
  t!"aircraft:fuselage:seat_width_business",
  t!"aircraft:fuselage:seat_width_economy",
  t!"aircraft:fuselage:seat_width_first",
  t!"aircraft:fuselage:sidebody_thickness_to_chord",
  t!"aircraft:fuselage:simple_layout",
  t!"aircraft:fuselage:tail_fineness",
  t!"aircraft:fuselage:wetted_area",
  t!"aircraft:fuselage:wetted_area_ratio_aftbody_to_total",
  t!"aircraft:fuselage:wetted_area_scaler",
  t!"aircraft:horizontal_tail:area",
  t!"aircraft:horizontal_tail:aspect_ratio",
  t!"aircraft:horizontal_tail:average_chord",
  t!"aircraft:horizontal_tail:characteristic_length",
  t!"aircraft:horizontal_tail:drag_factor",
  t!"aircraft:horizontal_tail:fineness",
  t!"aircraft:horizontal_tail:form_factor",
  t!"aircraft:horizontal_tail:laminar_flow_lower",
  t!"aircraft:horizontal_tail:laminar_flow_upper",
  t!"aircraft:horizontal_tail:mass",
  t!"aircraft:horizontal_tail:mass_coefficient",
  t!"aircraft:horizontal_tail:mass_scaler",
  t!"aircraft:horizontal_tail:moment_arm",
  t!"aircraft:horizontal_tail:moment_ratio",
  t!"aircraft:horizontal_tail:num_tails",
  t!"aircraft:horizontal_tail:root_chord",
  t!"aircraft:horizontal_tail:span",
  t!"aircraft:horizontal_tail:sweep",
  t!"aircraft:horizontal_tail:taper_ratio",
  t!"aircraft:horizontal_tail:thickness_to_chord",
  t!"aircraft:horizontal_tail:vertical_tail_mount_location",
  t!"aircraft:horizontal_tail:volume_coefficient",
  t!"aircraft:horizontal_tail:wetted_area",
  t!"aircraft:horizontal_tail:wetted_area_scaler",
  t!"aircraft:hydraulics:flight_control_mass_coefficient",
  t!"aircraft:hydraulics:gear_mass_coefficient",
  t!"aircraft:hydraulics:mass",
  t!"aircraft:hydraulics:mass_scaler",
  t!"aircraft:hydraulics:system_pressure",
  t!"aircraft:instruments:mass",
  t!"aircraft:instruments:mass_coefficient",
  t!"aircraft:instruments:mass_scaler",
  t!"aircraft:landing_gear:drag_coefficient",
  t!"aircraft:landing_gear:fixed_gear",
  t!"aircraft:landing_gear:main_gear_location",
  t!"aircraft:landing_gear:main_gear_mass",
  t!"aircraft:landing_gear:main_gear_mass_fraction",
  t!"aircraft:landing_gear:main_gear_mass_scaler",
  t!"aircraft:landing_gear:main_gear_oleo_length",
  t!"aircraft:landing_gear:mass_coefficient"]

/-- Continuation, aviary/variable_info/variables.py:1-783. -/
def vars4 : List Text := [
  t!"aircraft:landing_gear:nose_gear_mass",
  t!"aircraft:landing_gear:nose_gear_mass_scaler",
  t!"aircraft:landing_gear:nose_gear_oleo_length",
  t!"aircraft:landing_gear:tail_hook_mass_scaler",
  t!"aircraft:landing_gear:total_mass",
  t!"aircraft:landing_gear:total_mass_scaler",
  t!"aircraft:nacelle:avg_diameter",
  t!"aircraft:nacelle:avg_length",
  t!"aircraft:nacelle:characteristic_length",
  t!"aircraft:nacelle:clearance_ratio",
  t!"aircraft:nacelle:core_diameter_ratio",
  t!"aircraft:nacelle:drag_factor",
  t!"aircraft:nacelle:fineness",
  t!"aircraft:nacelle:form_factor",
  t!"aircraft:nacelle:laminar_flow_lower",
  t!"aircraft:nacelle:laminar_flow_upper",
  t!"aircraft:nacelle:mass",
  t!"aircraft:nacelle:mass_scaler",
  t!"aircraft:nacelle:mass_specific",
  t!"aircraft:nacelle:percent_diam_buried_in_fuselage",
  t!"aircraft:nacelle:pylon_drag_factor",
  t!"aircraft:nacelle:surface_area",
  t!"aircraft:nacelle:total_wetted_area",
  t!"aircraft:nacelle:wetted_area",
  t!"aircraft:nacelle:wetted_area_scaler",
  t!"aircraft:oxygen_system:mass",
  t!"aircraft:oxygen_system:mass_scaler",
  t!"aircraft:paint:mass",
  t!"aircraft:paint:mass_per_unit_area",
  t!"aircraft:propulsion:energy_system_mass",
  t!"aircraft:propulsion:engine_oil_mass_scaler",
  t!"aircraft:propulsion:engine_position_factor",
  t!"aircraft:propulsion:mass",
  t!"aircraft:propulsion:misc_mass_scaler",
  t!"aircraft:propulsion:total_engine_controls_mass",
  t!"aircraft:propulsion:total_engine_mass",
  t!"aircraft:propulsion:total_engine_oil_mass",
  t!"aircraft:propulsion:total_engine_pod_mass",
  t!"aircraft:propulsion:total_misc_mass",
  t!"aircraft:propulsion:total_num_engines",
  t!"aircraft:propulsion:total_num_fuselage_engines",
  t!"aircraft:propulsion:total_num_wing_engines",
  t!"aircraft:propulsion:total_reference_sls_thrust",
  t!"aircraft:propulsion:total_scaled_sls_thrust",
  t!"aircraft:propulsion:total_starter_mass",
  t!"aircraft:propulsion:total_thrust_reversers_mass",
  t!"aircraft:strut:area",
  t!"aircraft:strut:area_ratio",
  t!"aircraft:strut:attachment_location",
  t!"aircraft:strut:attachment_location_dimensionless",
  t!"aircraft:strut:chord",
  t!"aircraft:strut:dimensional_location_specified",
  t!"aircraft:strut:drag_factor",
  t!"aircraft:strut:fuselage_interference_factor",
  t!"aircraft:strut:length",
  t!"aircraft:strut:mass",
  t!"aircraft:strut:mass_coefficient",
  t!"aircraft:strut:thickness_to_chord",
  t!"aircraft:tail_boom:length",
  t!"aircraft:vertical_tail:area",
  t!"aircraft:vertical_tail:aspect_ratio",
  t!"aircraft:vertical_tail:average_chord",
  t!"aircraft:vertical_tail:characteristic_length",
  t!"aircraft:vertical_tail:drag_factor",
  t!"aircraft:vertical_tail:fineness",
  t!"aircraft:vertical_tail:form_factor",
  t!"aircraft:vertical_tail:laminar_flow_lower",
  t!"aircraft:vertical_tail:laminar_flow_upper",
  t!"aircraft:vertical_tail:mass",
  t!"aircraft:vertical_tail:mass_coefficient",
  t!"aircraft:vertical_tail:mass_scaler",
  t!"aircraft:vertical_tail:moment_arm",
  t!"aircraft:vertical_tail:moment_ratio",
  t!"aircraft:vertical_tail:num_tails",
  t!"aircraft:vertical_tail:root_chord",
  t!"aircraft:vertical_tail:span",
  t!"aircraft:vertical_tail:sweep",
  t!"aircraft:vertical_tail:taper_ratio",
  t!"aircraft:vertical_tail:thickness_to_chord",
  t!"aircraft:vertical_tail:volume_coefficient"]

/-- Continuation, aviary/variable_info/variables.py:1-783. -/
def vars5 : List Text := [
  t!"aircraft:vertical_tail:wetted_area",
  t!"aircraft:vertical_tail:wetted_area_scaler",
  t!"aircraft:wing:aeroelastic_tailoring_factor",
  t!"aircraft:wing:airfoil_technology",
  t!"aircraft:wing:area",
  t!"aircraft:wing:aspect_ratio",
  t!"aircraft:wing:aspect_ratio_reference",
  t!"aircraft:wing:average_chord",
  t!"aircraft:wing:bending_material_factor",
  t!"aircraft:wing:bending_material_mass",
  t!"aircraft:wing:bending_material_mass_scaler",
  t!"aircraft:wing:bwb_aftbody_mass",
  t!"aircraft:wing:bwb_aftbody_mass_scaler",
  t!"aircraft:wing:center_chord",
  t!"aircraft:wing:center_distance",
  t!"aircraft:wing:characteristic_length",
  t!"aircraft:wing:choose_fold_location",
  t!"aircraft:wing:chord_per_semispan_distribution",
  t!"aircraft:wing:composite_fraction",
  t!"aircraft:wing:control_surface_area",
  t!"aircraft:wing:control_surface_area_ratio",
  t!"aircraft:wing:detailed_wing",
  t!"aircraft:wing:dihedral",
  t!"aircraft:wing:drag_factor",
  t!"aircraft:wing:eng_pod_inertia_factor",
  t!"aircraft:wing:exposed_area",
  t!"aircraft:wing:fineness",
  t!"aircraft:wing:flap_chord_ratio",
  t!"aircraft:wing:flap_deflection_landing",
  t!"aircraft:wing:flap_deflection_takeoff",
  t!"aircraft:wing:flap_drag_increment_optimum",
  t!"aircraft:wing:flap_lift_increment_optimum",
  t!"aircraft:wing:flap_span_ratio",
  t!"aircraft:wing:flap_type",
  t!"aircraft:wing:fold_dimensional_location_specified",
  t!"aircraft:wing:fold_mass",
  t!"aircraft:wing:fold_mass_coefficient",
  t!"aircraft:wing:folded_span",
  t!"aircraft:wing:folded_span_dimensionless",
  t!"aircraft:wing:folding_area",
  t!"aircraft:wing:form_factor",
  t!"aircraft:wing:fuselage_interference_factor",
  t!"aircraft:wing:glove_and_bat",
  t!"aircraft:wing:has_fold",
  t!"aircraft:wing:has_strut",
  t!"aircraft:wing:height",
  t!"aircraft:wing:high_lift_mass",
  t!"aircraft:wing:high_lift_mass_coefficient",
  t!"aircraft:wing:incidence",
  t!"aircraft:wing:input_station_distribution",
  t!"aircraft:wing:laminar_flow_lower",
  t!"aircraft:wing:laminar_flow_upper",
  t!"aircraft:wing:leading_edge_sweep",
  t!"aircraft:wing:load_distribution_control",
  t!"aircraft:wing:load_fraction",
  t!"aircraft:wing:load_path_sweep_distribution",
  t!"aircraft:wing:loading_above_20",
  t!"aircraft:wing:mass",
  t!"aircraft:wing:mass_coefficient",
  t!"aircraft:wing:mass_scaler",
  t!"aircraft:wing:material_factor",
  t!"aircraft:wing:max_camber_at_70_semispan",
  t!"aircraft:wing:max_lift_ref",
  t!"aircraft:wing:max_slat_deflection_landing",
  t!"aircraft:wing:max_slat_deflection_takeoff",
  t!"aircraft:wing:max_thickness_location",
  t!"aircraft:wing:min_pressure_location",
  t!"aircraft:wing:misc_mass",
  t!"aircraft:wing:misc_mass_scaler",
  t!"aircraft:wing:num_flap_segments",
  t!"aircraft:wing:num_integration_stations",
  t!"aircraft:wing:optimum_flap_deflection",
  t!"aircraft:wing:optimum_slat_deflection",
  t!"aircraft:wing:outboard_semispan",
  t!"aircraft:wing:root_chord",
  t!"aircraft:wing:shear_control_mass",
  t!"aircraft:wing:shear_control_mass_scaler",
  t!"aircraft:wing:slat_chord_ratio",
  t!"aircraft:wing:slat_lift_increment_optimum",
  t!"aircraft:wing:slat_span_ratio"]

/-- Continuation, aviary/variable_info/variables.py:1-783. -/
def vars6 : List Text := [
  t!"aircraft:wing:span",
  t!"aircraft:wing:span_efficiency_factor",
  t!"aircraft:wing:span_efficiency_reduction",
  t!"aircraft:wing:strut_bracing_factor",
  t!"aircraft:wing:surface_control_mass",
  t!"aircraft:wing:surface_control_mass_coefficient",
  t!"aircraft:wing:surface_control_mass_scaler",
  t!"aircraft:wing:sweep",
  t!"aircraft:wing:taper_ratio",
  t!"aircraft:wing:thickness_to_chord",
  t!"aircraft:wing:thickness_to_chord_distribution",
  t!"aircraft:wing:thickness_to_chord_reference",
  t!"aircraft:wing:thickness_to_chord_root",
  t!"aircraft:wing:thickness_to_chord_tip",
  t!"aircraft:wing:thickness_to_chord_unweighted",
  t!"aircraft:wing:ultimate_load_factor",
  t!"aircraft:wing:var_sweep_mass_penalty",
  t!"aircraft:wing:vertical_mount_location",
  t!"aircraft:wing:wetted_area",
  t!"aircraft:wing:wetted_area_scaler",
  t!"aircraft:wing:zero_lift_angle",
  t!"density",
  t!"dynamic_pressure",
  t!"dynamic_viscosity",
  t!"kinematic_viscosity",
  t!"mach",
  t!"mach_rate",
  t!"speed_of_sound",
  t!"static_pressure",
  t!"temperature",
  t!"altitude",
  t!"altitude_rate",
  t!"altitude_rate_max",
  t!"distance",
  t!"distance_rate",
  t!"flight_path_angle",
  t!"flight_path_angle_rate",
  t!"specific_energy",
  t!"specific_energy_rate",
  t!"specific_energy_rate_excess",
  t!"velocity",
  t!"velocity_rate",
  t!"angle_of_attack",
  t!"battery_state_of_charge",
  t!"cumulative_electric_energy_used",
  t!"drag",
  t!"drag_coefficient",
  t!"lift",
  t!"lift_coefficient",
  t!"mass",
  t!"mass_rate",
  t!"electric_power_in",
  t!"electric_power_in_total",
  t!"fuel_flow_rate",
  t!"fuel_flow_rate_negative",
  t!"fuel_flow_rate_negative_total",
  t!"fuel_flow_rate_total",
  t!"hybrid_throttle",
  t!"nox_rate",
  t!"nox_rate_total",
  t!"propeller_tip_speed",
  t!"rotations_per_minute",
  t!"shaft_power",
  t!"shaft_power_max",
  t!"t4",
  t!"throttle",
  t!"thrust_net",
  t!"thrust_net_max",
  t!"thrust_net_max_total",
  t!"thrust_net_total",
  t!"torque",
  t!"torque_max",
  t!"mission:block_fuel_mass",
  t!"mission:final_mass",
  t!"mission:final_time",
  t!"mission:fuel_mass",
  t!"mission:gravity",
  t!"mission:gross_mass",
  t!"mission:operating_items_mass",
  t!"mission:operating_items_mass_additional"]

/-- Continuation, aviary/variable_info/variables.py:1-783. -/
def vars7 : List Text := [
  t!"mission:operating_mass",
  t!"mission:range",
  t!"mission:reserve_fuel_margin",
  t!"mission:reserve_fuel_mass",
  t!"mission:reserve_fuel_mass_additional",
  t!"mission:sea_level_density",
  t!"mission:total_fuel_mass",
  t!"mission:total_reserve_fuel_mass",
  t!"mission:zero_fuel_mass",
  t!"mission:constraints:excess_fuel_mass_capacity",
  t!"mission:constraints:gearbox_shaft_power_residual",
  t!"mission:constraints:mass_residual",
  t!"mission:constraints:max_mach",
  t!"mission:constraints:range_residual",
  t!"mission:constraints:range_residual_reserve",
  t!"mission:landing:airport_altitude",
  t!"mission:landing:braking_delay",
  t!"mission:landing:braking_friction_coefficient",
  t!"mission:landing:drag_coefficient_flap_increment",
  t!"mission:landing:drag_coefficient_min",
  t!"mission:landing:field_length",
  t!"mission:landing:flare_rate",
  t!"mission:landing:glide_to_stall_ratio",
  t!"mission:landing:ground_distance",
  t!"mission:landing:initial_altitude",
  t!"mission:landing:initial_mach",
  t!"mission:landing:initial_velocity",
  t!"mission:landing:lift_coefficient_flap_increment",
  t!"mission:landing:lift_coefficient_max",
  t!"mission:landing:maximum_flare_load_factor",
  t!"mission:landing:maximum_sink_rate",
  t!"mission:landing:obstacle_height",
  t!"mission:landing:rolling_friction_coefficient",
  t!"mission:landing:spoiler_drag_coefficient",
  t!"mission:landing:spoiler_lift_coefficient",
  t!"mission:landing:stall_velocity",
  t!"mission:landing:touchdown_mass",
  t!"mission:landing:touchdown_sink_rate",
  t!"mission:objectives:fuel",
  t!"mission:objectives:range",
  t!"mission:takeoff:airport_altitude",
  t!"mission:takeoff:angle_of_attack_runway",
  t!"mission:takeoff:ascent_duration",
  t!"mission:takeoff:ascent_t_initial",
  t!"mission:takeoff:braking_friction_coefficient",
  t!"mission:takeoff:climbout_thrust_fraction",
  t!"mission:takeoff:decision_speed_increment",
  t!"mission:takeoff:drag_coefficient_flap_increment",
  t!"mission:takeoff:drag_coefficient_min",
  t!"mission:takeoff:field_length",
  t!"mission:takeoff:final_altitude",
  t!"mission:takeoff:final_mach",
  t!"mission:takeoff:final_mass",
  t!"mission:takeoff:final_velocity",
  t!"mission:takeoff:fuel_mass",
  t!"mission:takeoff:ground_distance",
  t!"mission:takeoff:lift_coefficient_flap_increment",
  t!"mission:takeoff:lift_coefficient_max",
  t!"mission:takeoff:lift_over_drag",
  t!"mission:takeoff:obstacle_height",
  t!"mission:takeoff:rolling_friction_coefficient",
  t!"mission:takeoff:rotation_speed_increment",
  t!"mission:takeoff:rotation_velocity",
  t!"mission:takeoff:spoiler_drag_coefficient",
  t!"mission:takeoff:spoiler_lift_coefficient",
  t!"mission:takeoff:thrust_incidence",
  t!"mission:taxi:duration",
  t!"mission:taxi:fuel_mass_taxi_in",
  t!"mission:taxi:fuel_mass_taxi_out",
  t!"mission:taxi:mach",
  t!"settings:aerodynamics_method",
  t!"settings:atmosphere_model",
  t!"settings:equations_of_motion",
  t!"settings:mass_method",
  t!"settings:payload_range",
  t!"settings:problem_type",
  t!"settings:verbosity"]

/-- All variables, aviary/variable_info/variables.py:1-783. -/
def vars : List Text := vars0 ++ vars1 ++ vars2 ++ vars3 ++ vars4 ++ vars5 ++ vars6 ++ vars7

end Verif.MetaTable
