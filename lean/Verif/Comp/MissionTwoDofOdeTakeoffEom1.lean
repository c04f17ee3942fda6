import Verif.Lemmas.CompDeriv

/-! # Partial derivatives of the components of `aviary/mission/two_dof/ode/takeoff_eom.py`

One node of a vector component is modelled over the real numbers.  Each option that selects a
branch is fixed, one namespace per choice.  `out_x` is the output `x`, `J_x__y` the entry that
`compute_partials` (or `declare_partials` with `val`) assigns, `d_x__y` the proof that the entry is
the derivative.  Inputs an output does not take as argument have no influence on it. -/

set_option linter.all false

namespace Verif.Comp.MissionTwoDofOdeTakeoffEom.TakeoffEOM_groundroll_rotation
open Real

/-- aviary/mission/two_dof/ode/takeoff_eom.py:235 -/
noncomputable abbrev thrust_along_flightpath (vehicle_propulsion_thrust_total wing_incidence : ℝ) : ℝ :=
  vehicle_propulsion_thrust_total * (cos ((wing_incidence - wing_incidence) * (π / 180)))

/-- aviary/mission/two_dof/ode/takeoff_eom.py:236 -/
noncomputable abbrev thrust_across_flightpath (vehicle_propulsion_thrust_total wing_incidence : ℝ) : ℝ :=
  vehicle_propulsion_thrust_total * (sin ((wing_incidence - wing_incidence) * (π / 180)))

/-- aviary/mission/two_dof/ode/takeoff_eom.py:240 -/
noncomputable abbrev normal_force (vehicle_mass vehicle_propulsion_thrust_total vehicle_lift wing_incidence : ℝ) : ℝ :=
  (vehicle_mass - vehicle_lift) - (thrust_across_flightpath vehicle_propulsion_thrust_total
    wing_incidence)

/-- aviary/mission/two_dof/ode/takeoff_eom.py:241 -/
noncomputable abbrev normal_force_2 (vehicle_mass vehicle_propulsion_thrust_total vehicle_lift wing_incidence : ℝ) : ℝ :=
  if (normal_force vehicle_mass vehicle_propulsion_thrust_total vehicle_lift wing_incidence) < 0
    then 0 else (normal_force vehicle_mass vehicle_propulsion_thrust_total vehicle_lift
    wing_incidence)

/-- aviary/mission/two_dof/ode/takeoff_eom.py:249 -/
noncomputable abbrev cos_gamma (mission_flight_path_angle : ℝ) : ℝ := cos mission_flight_path_angle

/-- aviary/mission/two_dof/ode/takeoff_eom.py:250 -/
noncomputable abbrev sin_gamma (mission_flight_path_angle : ℝ) : ℝ := sin mission_flight_path_angle

/-- aviary/mission/two_dof/ode/takeoff_eom.py:272 -/
noncomputable abbrev load_factor (vehicle_mass vehicle_propulsion_thrust_total vehicle_lift mission_flight_path_angle wing_incidence : ℝ) : ℝ :=
  (vehicle_lift + (thrust_across_flightpath vehicle_propulsion_thrust_total wing_incidence)) /
    (vehicle_mass * (cos_gamma mission_flight_path_angle))

/-- aviary/mission/two_dof/ode/takeoff_eom.py:304 -/
noncomputable abbrev cos_alpha (wing_incidence : ℝ) : ℝ :=
  cos ((wing_incidence - wing_incidence) * (π / 180))

/-- aviary/mission/two_dof/ode/takeoff_eom.py:305 -/
noncomputable abbrev sin_alpha (wing_incidence : ℝ) : ℝ :=
  sin ((wing_incidence - wing_incidence) * (π / 180))

/-- aviary/mission/two_dof/ode/takeoff_eom.py:309 -/
noncomputable abbrev thrust_along_flightpath_2 (vehicle_propulsion_thrust_total wing_incidence : ℝ) : ℝ :=
  vehicle_propulsion_thrust_total * (cos_alpha wing_incidence)

/-- aviary/mission/two_dof/ode/takeoff_eom.py:310 -/
noncomputable abbrev thrust_across_flightpath_2 (vehicle_propulsion_thrust_total wing_incidence : ℝ) : ℝ :=
  vehicle_propulsion_thrust_total * (sin_alpha wing_incidence)

/-- aviary/mission/two_dof/ode/takeoff_eom.py:336 -/
noncomputable abbrev normal_force_3 (vehicle_mass vehicle_propulsion_thrust_total vehicle_lift wing_incidence : ℝ) : ℝ :=
  (vehicle_mass - vehicle_lift) - (thrust_across_flightpath_2 vehicle_propulsion_thrust_total
    wing_incidence)

/-- aviary/mission/two_dof/ode/takeoff_eom.py:341 -/
noncomputable abbrev normal_force_4 (vehicle_mass vehicle_propulsion_thrust_total vehicle_lift wing_incidence : ℝ) : ℝ :=
  if (normal_force_3 vehicle_mass vehicle_propulsion_thrust_total vehicle_lift wing_incidence) <
    0 then 0 else (normal_force_3 vehicle_mass vehicle_propulsion_thrust_total vehicle_lift
    wing_incidence)

/-- aviary/mission/two_dof/ode/takeoff_eom.py:344 -/
noncomputable abbrev dnf_dweight (vehicle_mass vehicle_propulsion_thrust_total vehicle_lift wing_incidence : ℝ) : ℝ :=
  if (normal_force_3 vehicle_mass vehicle_propulsion_thrust_total vehicle_lift wing_incidence) <
    0 then 0 else 1

/-- aviary/mission/two_dof/ode/takeoff_eom.py:347 -/
noncomputable abbrev dnf_dlift (vehicle_mass vehicle_propulsion_thrust_total vehicle_lift wing_incidence : ℝ) : ℝ :=
  if (normal_force_3 vehicle_mass vehicle_propulsion_thrust_total vehicle_lift wing_incidence) <
    0 then 0 else (-1)

/-- aviary/mission/two_dof/ode/takeoff_eom.py:349 -/
noncomputable abbrev dnf_dthrust (wing_incidence : ℝ) : ℝ := (-1) * (sin_alpha wing_incidence)

/-- aviary/mission/two_dof/ode/takeoff_eom.py:350 -/
noncomputable abbrev dnf_dthrust_2 (vehicle_mass vehicle_propulsion_thrust_total vehicle_lift wing_incidence : ℝ) : ℝ :=
  if (normal_force_3 vehicle_mass vehicle_propulsion_thrust_total vehicle_lift wing_incidence) <
    0 then 0 else (dnf_dthrust wing_incidence)

/-- Output `normal_force` of `TakeoffEOM.compute`, aviary/mission/two_dof/ode/takeoff_eom.py:242 -/
noncomputable def out_normal_force (vehicle_mass vehicle_propulsion_thrust_total vehicle_lift wing_incidence : ℝ) : ℝ :=
  normal_force_2 vehicle_mass vehicle_propulsion_thrust_total vehicle_lift wing_incidence

/-- Output `mission_velocity_rate` of `TakeoffEOM.compute`, aviary/mission/two_dof/ode/takeoff_eom.py:252 -/
noncomputable def out_mission_velocity_rate (gravity vehicle_mass vehicle_propulsion_thrust_total vehicle_lift vehicle_drag mission_flight_path_angle wing_incidence takeoff_rolling_friction_coefficient : ℝ) : ℝ :=
  (((((thrust_along_flightpath vehicle_propulsion_thrust_total wing_incidence) - vehicle_drag) -
    (vehicle_mass * (sin_gamma mission_flight_path_angle))) -
    (takeoff_rolling_friction_coefficient * (normal_force_2 vehicle_mass
    vehicle_propulsion_thrust_total vehicle_lift wing_incidence))) * gravity) / vehicle_mass

/-- Output `mission_flight_path_angle_rate` of `TakeoffEOM.compute`, aviary/mission/two_dof/ode/takeoff_eom.py:259 -/
noncomputable def out_mission_flight_path_angle_rate : ℝ := 0

/-- Output `mission_altitude_rate` of `TakeoffEOM.compute`, aviary/mission/two_dof/ode/takeoff_eom.py:267 -/
noncomputable def out_mission_altitude_rate (mission_velocity mission_flight_path_angle : ℝ) : ℝ :=
  mission_velocity * (sin_gamma mission_flight_path_angle)

/-- Output `mission_distance_rate` of `TakeoffEOM.compute`, aviary/mission/two_dof/ode/takeoff_eom.py:268 -/
noncomputable def out_mission_distance_rate (mission_velocity mission_flight_path_angle : ℝ) : ℝ :=
  mission_velocity * (cos_gamma mission_flight_path_angle)

/-- Output `fuselage_pitch` of `TakeoffEOM.compute`, aviary/mission/two_dof/ode/takeoff_eom.py:270 -/
noncomputable def out_fuselage_pitch (mission_flight_path_angle wing_incidence : ℝ) : ℝ :=
  ((mission_flight_path_angle * (1 / (π / 180))) - wing_incidence) + wing_incidence

/-- Output `load_factor` of `TakeoffEOM.compute`, aviary/mission/two_dof/ode/takeoff_eom.py:273 -/
noncomputable def out_load_factor (vehicle_mass vehicle_propulsion_thrust_total vehicle_lift mission_flight_path_angle wing_incidence : ℝ) : ℝ :=
  load_factor vehicle_mass vehicle_propulsion_thrust_total vehicle_lift
    mission_flight_path_angle wing_incidence

/-- Output `angle_of_attack_rate` of `TakeoffEOM.compute`, aviary/mission/two_dof/ode/takeoff_eom.py:276 -/
noncomputable def out_angle_of_attack_rate (rotation_pitch_rate : ℝ) : ℝ := rotation_pitch_rate

/-- Partial of `fuselage_pitch` with respect to `mission_flight_path_angle` as set by `TakeoffEOM`, aviary/mission/two_dof/ode/takeoff_eom.py:206 -/
noncomputable def J_fuselage_pitch__mission_flight_path_angle : ℝ := 1 / (π / 180)

/-- Partial of `load_factor` with respect to `vehicle_lift` as set by `TakeoffEOM`, aviary/mission/two_dof/ode/takeoff_eom.py:320 -/
noncomputable def J_load_factor__vehicle_lift (vehicle_mass mission_flight_path_angle : ℝ) : ℝ :=
  1 / (vehicle_mass * (cos_gamma mission_flight_path_angle))

/-- Partial of `load_factor` with respect to `vehicle_mass` as set by `TakeoffEOM`, aviary/mission/two_dof/ode/takeoff_eom.py:321 -/
noncomputable def J_load_factor__vehicle_mass (vehicle_mass vehicle_propulsion_thrust_total vehicle_lift mission_flight_path_angle wing_incidence : ℝ) : ℝ :=
  (-(vehicle_lift + (thrust_across_flightpath_2 vehicle_propulsion_thrust_total
    wing_incidence))) / ((vehicle_mass ^ 2) * (cos_gamma mission_flight_path_angle))

/-- Partial of `load_factor` with respect to `mission_flight_path_angle` as set by `TakeoffEOM`, aviary/mission/two_dof/ode/takeoff_eom.py:326 -/
noncomputable def J_load_factor__mission_flight_path_angle (vehicle_mass vehicle_propulsion_thrust_total vehicle_lift mission_flight_path_angle wing_incidence : ℝ) : ℝ :=
  ((-(vehicle_lift + (thrust_across_flightpath_2 vehicle_propulsion_thrust_total
    wing_incidence))) / (vehicle_mass * ((cos_gamma mission_flight_path_angle) ^ 2))) *
    (-(sin_gamma mission_flight_path_angle))

/-- Partial of `load_factor` with respect to `vehicle_propulsion_thrust_total` as set by `TakeoffEOM`, aviary/mission/two_dof/ode/takeoff_eom.py:331 -/
noncomputable def J_load_factor__vehicle_propulsion_thrust_total (vehicle_mass mission_flight_path_angle wing_incidence : ℝ) : ℝ :=
  (sin_alpha wing_incidence) / (vehicle_mass * (cos_gamma mission_flight_path_angle))

/-- Partial of `mission_velocity_rate` with respect to `vehicle_propulsion_thrust_total` as set by `TakeoffEOM`, aviary/mission/two_dof/ode/takeoff_eom.py:355 -/
noncomputable def J_mission_velocity_rate__vehicle_propulsion_thrust_total (gravity vehicle_mass vehicle_propulsion_thrust_total vehicle_lift wing_incidence takeoff_rolling_friction_coefficient : ℝ) : ℝ :=
  (((cos_alpha wing_incidence) - (takeoff_rolling_friction_coefficient * (dnf_dthrust_2
    vehicle_mass vehicle_propulsion_thrust_total vehicle_lift wing_incidence))) * gravity) /
    vehicle_mass

/-- Partial of `mission_velocity_rate` with respect to `vehicle_drag` as set by `TakeoffEOM`, aviary/mission/two_dof/ode/takeoff_eom.py:359 -/
noncomputable def J_mission_velocity_rate__vehicle_drag (gravity vehicle_mass : ℝ) : ℝ :=
  (-gravity) / vehicle_mass

/-- Partial of `mission_velocity_rate` with respect to `vehicle_mass` as set by `TakeoffEOM`, aviary/mission/two_dof/ode/takeoff_eom.py:360 -/
noncomputable def J_mission_velocity_rate__vehicle_mass (gravity vehicle_mass vehicle_propulsion_thrust_total vehicle_lift vehicle_drag mission_flight_path_angle wing_incidence takeoff_rolling_friction_coefficient : ℝ) : ℝ :=
  (gravity * ((vehicle_mass * ((-(sin_gamma mission_flight_path_angle)) -
    (takeoff_rolling_friction_coefficient * (dnf_dweight vehicle_mass
    vehicle_propulsion_thrust_total vehicle_lift wing_incidence)))) -
    ((((thrust_along_flightpath_2 vehicle_propulsion_thrust_total wing_incidence) -
    vehicle_drag) - (vehicle_mass * (sin_gamma mission_flight_path_angle))) -
    (takeoff_rolling_friction_coefficient * (normal_force_4 vehicle_mass
    vehicle_propulsion_thrust_total vehicle_lift wing_incidence))))) / (vehicle_mass ^ 2)

/-- Partial of `mission_velocity_rate` with respect to `mission_flight_path_angle` as set by `TakeoffEOM`, aviary/mission/two_dof/ode/takeoff_eom.py:374 -/
noncomputable def J_mission_velocity_rate__mission_flight_path_angle (gravity mission_flight_path_angle : ℝ) : ℝ :=
  (-(cos_gamma mission_flight_path_angle)) * gravity

/-- Partial of `mission_velocity_rate` with respect to `vehicle_lift` as set by `TakeoffEOM`, aviary/mission/two_dof/ode/takeoff_eom.py:377 -/
noncomputable def J_mission_velocity_rate__vehicle_lift (gravity vehicle_mass vehicle_propulsion_thrust_total vehicle_lift wing_incidence takeoff_rolling_friction_coefficient : ℝ) : ℝ :=
  (gravity * ((-takeoff_rolling_friction_coefficient) * (dnf_dlift vehicle_mass
    vehicle_propulsion_thrust_total vehicle_lift wing_incidence))) / vehicle_mass

/-- Partial of `mission_velocity_rate` with respect to `takeoff_rolling_friction_coefficient` as set by `TakeoffEOM`, aviary/mission/two_dof/ode/takeoff_eom.py:380 -/
noncomputable def J_mission_velocity_rate__takeoff_rolling_friction_coefficient (gravity vehicle_mass vehicle_propulsion_thrust_total vehicle_lift wing_incidence : ℝ) : ℝ :=
  ((-(normal_force_4 vehicle_mass vehicle_propulsion_thrust_total vehicle_lift wing_incidence))
    * gravity) / vehicle_mass

/-- Partial of `mission_altitude_rate` with respect to `mission_velocity` as set by `TakeoffEOM`, aviary/mission/two_dof/ode/takeoff_eom.py:384 -/
noncomputable def J_mission_altitude_rate__mission_velocity (mission_flight_path_angle : ℝ) : ℝ :=
  sin_gamma mission_flight_path_angle

/-- Partial of `mission_altitude_rate` with respect to `mission_flight_path_angle` as set by `TakeoffEOM`, aviary/mission/two_dof/ode/takeoff_eom.py:385 -/
noncomputable def J_mission_altitude_rate__mission_flight_path_angle (mission_velocity mission_flight_path_angle : ℝ) : ℝ :=
  mission_velocity * (cos_gamma mission_flight_path_angle)

/-- Partial of `mission_distance_rate` with respect to `mission_velocity` as set by `TakeoffEOM`, aviary/mission/two_dof/ode/takeoff_eom.py:439 -/
noncomputable def J_mission_distance_rate__mission_velocity (mission_flight_path_angle : ℝ) : ℝ :=
  cos_gamma mission_flight_path_angle

/-- Partial of `mission_distance_rate` with respect to `mission_flight_path_angle` as set by `TakeoffEOM`, aviary/mission/two_dof/ode/takeoff_eom.py:440 -/
noncomputable def J_mission_distance_rate__mission_flight_path_angle (mission_velocity mission_flight_path_angle : ℝ) : ℝ :=
  (-mission_velocity) * (sin_gamma mission_flight_path_angle)

/-- Partial of `normal_force` with respect to `vehicle_mass` as set by `TakeoffEOM`, aviary/mission/two_dof/ode/takeoff_eom.py:443 -/
noncomputable def J_normal_force__vehicle_mass (vehicle_mass vehicle_propulsion_thrust_total vehicle_lift wing_incidence : ℝ) : ℝ :=
  dnf_dweight vehicle_mass vehicle_propulsion_thrust_total vehicle_lift wing_incidence

/-- Partial of `normal_force` with respect to `vehicle_lift` as set by `TakeoffEOM`, aviary/mission/two_dof/ode/takeoff_eom.py:444 -/
noncomputable def J_normal_force__vehicle_lift (vehicle_mass vehicle_propulsion_thrust_total vehicle_lift wing_incidence : ℝ) : ℝ :=
  dnf_dlift vehicle_mass vehicle_propulsion_thrust_total vehicle_lift wing_incidence

/-- Partial of `normal_force` with respect to `vehicle_propulsion_thrust_total` as set by `TakeoffEOM`, aviary/mission/two_dof/ode/takeoff_eom.py:445 -/
noncomputable def J_normal_force__vehicle_propulsion_thrust_total (vehicle_mass vehicle_propulsion_thrust_total vehicle_lift wing_incidence : ℝ) : ℝ :=
  dnf_dthrust_2 vehicle_mass vehicle_propulsion_thrust_total vehicle_lift wing_incidence

theorem d_normal_force__vehicle_mass (vehicle_mass vehicle_propulsion_thrust_total vehicle_lift
    wing_incidence : ℝ) (h0 : (vehicle_mass - vehicle_lift) - (vehicle_propulsion_thrust_total *
    (sin ((wing_incidence - wing_incidence) * (π / 180)))) ≠ 0) (h1 : (vehicle_mass -
    vehicle_lift) - (vehicle_propulsion_thrust_total * (sin ((wing_incidence - wing_incidence) *
    (π / 180)))) ≠ 0) :
    HasDerivAt (fun t => out_normal_force t vehicle_propulsion_thrust_total vehicle_lift wing_incidence) (J_normal_force__vehicle_mass vehicle_mass vehicle_propulsion_thrust_total vehicle_lift wing_incidence) vehicle_mass := by
  simp only [out_normal_force, J_normal_force__vehicle_mass, dnf_dweight, normal_force_3, thrust_across_flightpath_2, sin_alpha, normal_force_2, normal_force, thrust_across_flightpath]
  try split_ifs
  all_goals (apply hasDerivAt_of_eq; on_goal 1 => (repeat' comp_step))
  all_goals try comp_side
  all_goals try split_ifs
  all_goals try (exfalso; linarith)
  all_goals try simp only [mul_zero, zero_mul, add_zero, zero_add, sub_zero, zero_sub, mul_one, one_mul]
  all_goals try push_cast
  all_goals comp_eq

theorem d_normal_force__vehicle_propulsion_thrust_total (vehicle_mass
    vehicle_propulsion_thrust_total vehicle_lift wing_incidence : ℝ) (h0 : (vehicle_mass -
    vehicle_lift) - (vehicle_propulsion_thrust_total * (sin ((wing_incidence - wing_incidence) *
    (π / 180)))) ≠ 0) (h1 : (vehicle_mass - vehicle_lift) - (vehicle_propulsion_thrust_total *
    (sin ((wing_incidence - wing_incidence) * (π / 180)))) ≠ 0) :
    HasDerivAt (fun t => out_normal_force vehicle_mass t vehicle_lift wing_incidence) (J_normal_force__vehicle_propulsion_thrust_total vehicle_mass vehicle_propulsion_thrust_total vehicle_lift wing_incidence) vehicle_propulsion_thrust_total := by
  simp only [out_normal_force, J_normal_force__vehicle_propulsion_thrust_total, dnf_dthrust_2, dnf_dthrust, normal_force_3, thrust_across_flightpath_2, sin_alpha, normal_force_2, normal_force, thrust_across_flightpath]
  try split_ifs
  all_goals (apply hasDerivAt_of_eq; on_goal 1 => (repeat' comp_step))
  all_goals try comp_side
  all_goals try split_ifs
  all_goals try (exfalso; linarith)
  all_goals try simp only [mul_zero, zero_mul, add_zero, zero_add, sub_zero, zero_sub, mul_one, one_mul]
  all_goals try push_cast
  all_goals comp_eq

theorem d_normal_force__vehicle_lift (vehicle_mass vehicle_propulsion_thrust_total vehicle_lift
    wing_incidence : ℝ) (h0 : (vehicle_mass - vehicle_lift) - (vehicle_propulsion_thrust_total *
    (sin ((wing_incidence - wing_incidence) * (π / 180)))) ≠ 0) (h1 : (vehicle_mass -
    vehicle_lift) - (vehicle_propulsion_thrust_total * (sin ((wing_incidence - wing_incidence) *
    (π / 180)))) ≠ 0) :
    HasDerivAt (fun t => out_normal_force vehicle_mass vehicle_propulsion_thrust_total t wing_incidence) (J_normal_force__vehicle_lift vehicle_mass vehicle_propulsion_thrust_total vehicle_lift wing_incidence) vehicle_lift := by
  simp only [out_normal_force, J_normal_force__vehicle_lift, dnf_dlift, normal_force_3, thrust_across_flightpath_2, sin_alpha, normal_force_2, normal_force, thrust_across_flightpath]
  try split_ifs
  all_goals (apply hasDerivAt_of_eq; on_goal 1 => (repeat' comp_step))
  all_goals try comp_side
  all_goals try split_ifs
  all_goals try (exfalso; linarith)
  all_goals try simp only [mul_zero, zero_mul, add_zero, zero_add, sub_zero, zero_sub, mul_one, one_mul]
  all_goals try push_cast
  all_goals comp_eq

theorem d_mission_velocity_rate__vehicle_mass (gravity vehicle_mass
    vehicle_propulsion_thrust_total vehicle_lift vehicle_drag mission_flight_path_angle
    wing_incidence takeoff_rolling_friction_coefficient : ℝ) (h0 : (vehicle_mass - vehicle_lift) -
    (vehicle_propulsion_thrust_total * (sin ((wing_incidence - wing_incidence) * (π / 180)))) ≠ 0)
    (h1 : 0 < vehicle_mass) (h2 : (vehicle_mass - vehicle_lift) - (vehicle_propulsion_thrust_total
    * (sin ((wing_incidence - wing_incidence) * (π / 180)))) ≠ 0) :
    HasDerivAt (fun t => out_mission_velocity_rate gravity t vehicle_propulsion_thrust_total vehicle_lift vehicle_drag mission_flight_path_angle wing_incidence takeoff_rolling_friction_coefficient) (J_mission_velocity_rate__vehicle_mass gravity vehicle_mass vehicle_propulsion_thrust_total vehicle_lift vehicle_drag mission_flight_path_angle wing_incidence takeoff_rolling_friction_coefficient) vehicle_mass := by
  simp only [out_mission_velocity_rate, J_mission_velocity_rate__vehicle_mass, normal_force_4, thrust_along_flightpath_2, cos_alpha, dnf_dweight, normal_force_3, thrust_across_flightpath_2, sin_alpha, normal_force_2, normal_force, thrust_across_flightpath, sin_gamma, thrust_along_flightpath]
  try split_ifs
  all_goals (apply hasDerivAt_of_eq; on_goal 1 => (repeat' comp_step))
  all_goals try comp_side
  all_goals try split_ifs
  all_goals try (exfalso; linarith)
  all_goals try simp only [mul_zero, zero_mul, add_zero, zero_add, sub_zero, zero_sub, mul_one, one_mul]
  all_goals try push_cast
  all_goals comp_eq

theorem d_mission_velocity_rate__vehicle_propulsion_thrust_total (gravity vehicle_mass
    vehicle_propulsion_thrust_total vehicle_lift vehicle_drag mission_flight_path_angle
    wing_incidence takeoff_rolling_friction_coefficient : ℝ) (h0 : (vehicle_mass - vehicle_lift) -
    (vehicle_propulsion_thrust_total * (sin ((wing_incidence - wing_incidence) * (π / 180)))) ≠ 0)
    (h1 : 0 < vehicle_mass) (h2 : (vehicle_mass - vehicle_lift) - (vehicle_propulsion_thrust_total
    * (sin ((wing_incidence - wing_incidence) * (π / 180)))) ≠ 0) :
    HasDerivAt (fun t => out_mission_velocity_rate gravity vehicle_mass t vehicle_lift vehicle_drag mission_flight_path_angle wing_incidence takeoff_rolling_friction_coefficient) (J_mission_velocity_rate__vehicle_propulsion_thrust_total gravity vehicle_mass vehicle_propulsion_thrust_total vehicle_lift wing_incidence takeoff_rolling_friction_coefficient) vehicle_propulsion_thrust_total := by
  simp only [out_mission_velocity_rate, J_mission_velocity_rate__vehicle_propulsion_thrust_total, dnf_dthrust_2, dnf_dthrust, normal_force_3, thrust_across_flightpath_2, sin_alpha, cos_alpha, normal_force_2, normal_force, thrust_across_flightpath, sin_gamma, thrust_along_flightpath]
  try split_ifs
  all_goals (apply hasDerivAt_of_eq; on_goal 1 => (repeat' comp_step))
  all_goals try comp_side
  all_goals try split_ifs
  all_goals try (exfalso; linarith)
  all_goals try simp only [mul_zero, zero_mul, add_zero, zero_add, sub_zero, zero_sub, mul_one, one_mul]
  all_goals try push_cast
  all_goals comp_eq

theorem d_mission_velocity_rate__vehicle_lift (gravity vehicle_mass
    vehicle_propulsion_thrust_total vehicle_lift vehicle_drag mission_flight_path_angle
    wing_incidence takeoff_rolling_friction_coefficient : ℝ) (h0 : (vehicle_mass - vehicle_lift) -
    (vehicle_propulsion_thrust_total * (sin ((wing_incidence - wing_incidence) * (π / 180)))) ≠ 0)
    (h1 : 0 < vehicle_mass) (h2 : (vehicle_mass - vehicle_lift) - (vehicle_propulsion_thrust_total
    * (sin ((wing_incidence - wing_incidence) * (π / 180)))) ≠ 0) :
    HasDerivAt (fun t => out_mission_velocity_rate gravity vehicle_mass vehicle_propulsion_thrust_total t vehicle_drag mission_flight_path_angle wing_incidence takeoff_rolling_friction_coefficient) (J_mission_velocity_rate__vehicle_lift gravity vehicle_mass vehicle_propulsion_thrust_total vehicle_lift wing_incidence takeoff_rolling_friction_coefficient) vehicle_lift := by
  simp only [out_mission_velocity_rate, J_mission_velocity_rate__vehicle_lift, dnf_dlift, normal_force_3, thrust_across_flightpath_2, sin_alpha, normal_force_2, normal_force, thrust_across_flightpath, sin_gamma, thrust_along_flightpath]
  try split_ifs
  all_goals (apply hasDerivAt_of_eq; on_goal 1 => (repeat' comp_step))
  all_goals try comp_side
  all_goals try split_ifs
  all_goals try (exfalso; linarith)
  all_goals try simp only [mul_zero, zero_mul, add_zero, zero_add, sub_zero, zero_sub, mul_one, one_mul]
  all_goals try push_cast
  all_goals comp_eq

theorem d_mission_velocity_rate__vehicle_drag (gravity vehicle_mass
    vehicle_propulsion_thrust_total vehicle_lift vehicle_drag mission_flight_path_angle
    wing_incidence takeoff_rolling_friction_coefficient : ℝ) (h0 : 0 < vehicle_mass) :
    HasDerivAt (fun t => out_mission_velocity_rate gravity vehicle_mass vehicle_propulsion_thrust_total vehicle_lift t mission_flight_path_angle wing_incidence takeoff_rolling_friction_coefficient) (J_mission_velocity_rate__vehicle_drag gravity vehicle_mass) vehicle_drag := by
  simp only [out_mission_velocity_rate, J_mission_velocity_rate__vehicle_drag, normal_force_2, normal_force, thrust_across_flightpath, sin_gamma, thrust_along_flightpath]
  try split_ifs
  all_goals (apply hasDerivAt_of_eq; on_goal 1 => (repeat' comp_step))
  all_goals try comp_side
  all_goals try split_ifs
  all_goals try (exfalso; linarith)
  all_goals try simp only [mul_zero, zero_mul, add_zero, zero_add, sub_zero, zero_sub, mul_one, one_mul]
  all_goals try push_cast
  all_goals comp_eq

theorem d_mission_velocity_rate__mission_flight_path_angle (gravity vehicle_mass
    vehicle_propulsion_thrust_total vehicle_lift vehicle_drag mission_flight_path_angle
    wing_incidence takeoff_rolling_friction_coefficient : ℝ) (h0 : 0 < vehicle_mass) :
    HasDerivAt (fun t => out_mission_velocity_rate gravity vehicle_mass vehicle_propulsion_thrust_total vehicle_lift vehicle_drag t wing_incidence takeoff_rolling_friction_coefficient) (J_mission_velocity_rate__mission_flight_path_angle gravity mission_flight_path_angle) mission_flight_path_angle := by
  simp only [out_mission_velocity_rate, J_mission_velocity_rate__mission_flight_path_angle, cos_gamma, normal_force_2, normal_force, thrust_across_flightpath, sin_gamma, thrust_along_flightpath]
  try split_ifs
  all_goals (apply hasDerivAt_of_eq; on_goal 1 => (repeat' comp_step))
  all_goals try comp_side
  all_goals try split_ifs
  all_goals try (exfalso; linarith)
  all_goals try simp only [mul_zero, zero_mul, add_zero, zero_add, sub_zero, zero_sub, mul_one, one_mul]
  all_goals try push_cast
  all_goals comp_eq

theorem d_mission_velocity_rate__takeoff_rolling_friction_coefficient (gravity vehicle_mass
    vehicle_propulsion_thrust_total vehicle_lift vehicle_drag mission_flight_path_angle
    wing_incidence takeoff_rolling_friction_coefficient : ℝ) (h0 : 0 < vehicle_mass) :
    HasDerivAt (fun t => out_mission_velocity_rate gravity vehicle_mass vehicle_propulsion_thrust_total vehicle_lift vehicle_drag mission_flight_path_angle wing_incidence t) (J_mission_velocity_rate__takeoff_rolling_friction_coefficient gravity vehicle_mass vehicle_propulsion_thrust_total vehicle_lift wing_incidence) takeoff_rolling_friction_coefficient := by
  simp only [out_mission_velocity_rate, J_mission_velocity_rate__takeoff_rolling_friction_coefficient, normal_force_4, normal_force_3, thrust_across_flightpath_2, sin_alpha, normal_force_2, normal_force, thrust_across_flightpath, sin_gamma, thrust_along_flightpath]
  try split_ifs
  all_goals (apply hasDerivAt_of_eq; on_goal 1 => (repeat' comp_step))
  all_goals try comp_side
  all_goals try split_ifs
  all_goals try (exfalso; linarith)
  all_goals try simp only [mul_zero, zero_mul, add_zero, zero_add, sub_zero, zero_sub, mul_one, one_mul]
  all_goals try push_cast
  all_goals comp_eq

theorem d_mission_altitude_rate__mission_velocity (mission_velocity mission_flight_path_angle : ℝ)
    :
    HasDerivAt (fun t => out_mission_altitude_rate t mission_flight_path_angle) (J_mission_altitude_rate__mission_velocity mission_flight_path_angle) mission_velocity := by
  simp only [out_mission_altitude_rate, J_mission_altitude_rate__mission_velocity, sin_gamma]
  (apply hasDerivAt_of_eq; on_goal 1 => (repeat' comp_step))
  all_goals try comp_side
  all_goals try simp only [mul_zero, zero_mul, add_zero, zero_add, sub_zero, zero_sub, mul_one, one_mul]
  all_goals try push_cast
  all_goals comp_eq

theorem d_mission_altitude_rate__mission_flight_path_angle (mission_velocity
    mission_flight_path_angle : ℝ)  :
    HasDerivAt (fun t => out_mission_altitude_rate mission_velocity t) (J_mission_altitude_rate__mission_flight_path_angle mission_velocity mission_flight_path_angle) mission_flight_path_angle := by
  simp only [out_mission_altitude_rate, J_mission_altitude_rate__mission_flight_path_angle, cos_gamma, sin_gamma]
  (apply hasDerivAt_of_eq; on_goal 1 => (repeat' comp_step))
  all_goals try comp_side
  all_goals try simp only [mul_zero, zero_mul, add_zero, zero_add, sub_zero, zero_sub, mul_one, one_mul]
  all_goals try push_cast
  all_goals comp_eq

theorem d_mission_distance_rate__mission_velocity (mission_velocity mission_flight_path_angle : ℝ)
    :
    HasDerivAt (fun t => out_mission_distance_rate t mission_flight_path_angle) (J_mission_distance_rate__mission_velocity mission_flight_path_angle) mission_velocity := by
  simp only [out_mission_distance_rate, J_mission_distance_rate__mission_velocity, cos_gamma]
  (apply hasDerivAt_of_eq; on_goal 1 => (repeat' comp_step))
  all_goals try comp_side
  all_goals try simp only [mul_zero, zero_mul, add_zero, zero_add, sub_zero, zero_sub, mul_one, one_mul]
  all_goals try push_cast
  all_goals comp_eq

theorem d_mission_distance_rate__mission_flight_path_angle (mission_velocity
    mission_flight_path_angle : ℝ)  :
    HasDerivAt (fun t => out_mission_distance_rate mission_velocity t) (J_mission_distance_rate__mission_flight_path_angle mission_velocity mission_flight_path_angle) mission_flight_path_angle := by
  simp only [out_mission_distance_rate, J_mission_distance_rate__mission_flight_path_angle, sin_gamma, cos_gamma]
  (apply hasDerivAt_of_eq; on_goal 1 => (repeat' comp_step))
  all_goals try comp_side
  all_goals try simp only [mul_zero, zero_mul, add_zero, zero_add, sub_zero, zero_sub, mul_one, one_mul]
  all_goals try push_cast
  all_goals comp_eq

theorem d_fuselage_pitch__mission_flight_path_angle (mission_flight_path_angle wing_incidence : ℝ)
    :
    HasDerivAt (fun t => out_fuselage_pitch t wing_incidence) (J_fuselage_pitch__mission_flight_path_angle) mission_flight_path_angle := by
  simp only [out_fuselage_pitch, J_fuselage_pitch__mission_flight_path_angle]
  (apply hasDerivAt_of_eq; on_goal 1 => (repeat' comp_step))
  all_goals try comp_side
  all_goals try simp only [mul_zero, zero_mul, add_zero, zero_add, sub_zero, zero_sub, mul_one, one_mul]
  all_goals try push_cast
  all_goals comp_eq

theorem d_load_factor__vehicle_mass (vehicle_mass vehicle_propulsion_thrust_total vehicle_lift
    mission_flight_path_angle wing_incidence : ℝ) (h0 : 0 < vehicle_mass) (h1 : cos
    mission_flight_path_angle ≠ 0) :
    HasDerivAt (fun t => out_load_factor t vehicle_propulsion_thrust_total vehicle_lift mission_flight_path_angle wing_incidence) (J_load_factor__vehicle_mass vehicle_mass vehicle_propulsion_thrust_total vehicle_lift mission_flight_path_angle wing_incidence) vehicle_mass := by
  simp only [out_load_factor, J_load_factor__vehicle_mass, thrust_across_flightpath_2, sin_alpha, load_factor, cos_gamma, thrust_across_flightpath]
  (apply hasDerivAt_of_eq; on_goal 1 => (repeat' comp_step))
  all_goals try comp_side
  all_goals try simp only [mul_zero, zero_mul, add_zero, zero_add, sub_zero, zero_sub, mul_one, one_mul]
  all_goals try push_cast
  all_goals comp_eq

theorem d_load_factor__vehicle_propulsion_thrust_total (vehicle_mass
    vehicle_propulsion_thrust_total vehicle_lift mission_flight_path_angle wing_incidence : ℝ) (h0
    : 0 < vehicle_mass) (h1 : cos mission_flight_path_angle ≠ 0) :
    HasDerivAt (fun t => out_load_factor vehicle_mass t vehicle_lift mission_flight_path_angle wing_incidence) (J_load_factor__vehicle_propulsion_thrust_total vehicle_mass mission_flight_path_angle wing_incidence) vehicle_propulsion_thrust_total := by
  simp only [out_load_factor, J_load_factor__vehicle_propulsion_thrust_total, sin_alpha, load_factor, cos_gamma, thrust_across_flightpath]
  (apply hasDerivAt_of_eq; on_goal 1 => (repeat' comp_step))
  all_goals try comp_side
  all_goals try simp only [mul_zero, zero_mul, add_zero, zero_add, sub_zero, zero_sub, mul_one, one_mul]
  all_goals try push_cast
  all_goals comp_eq

theorem d_load_factor__vehicle_lift (vehicle_mass vehicle_propulsion_thrust_total vehicle_lift
    mission_flight_path_angle wing_incidence : ℝ) (h0 : 0 < vehicle_mass) (h1 : cos
    mission_flight_path_angle ≠ 0) :
    HasDerivAt (fun t => out_load_factor vehicle_mass vehicle_propulsion_thrust_total t mission_flight_path_angle wing_incidence) (J_load_factor__vehicle_lift vehicle_mass mission_flight_path_angle) vehicle_lift := by
  simp only [out_load_factor, J_load_factor__vehicle_lift, load_factor, cos_gamma, thrust_across_flightpath]
  (apply hasDerivAt_of_eq; on_goal 1 => (repeat' comp_step))
  all_goals try comp_side
  all_goals try simp only [mul_zero, zero_mul, add_zero, zero_add, sub_zero, zero_sub, mul_one, one_mul]
  all_goals try push_cast
  all_goals comp_eq

theorem d_load_factor__mission_flight_path_angle (vehicle_mass vehicle_propulsion_thrust_total
    vehicle_lift mission_flight_path_angle wing_incidence : ℝ) (h0 : 0 < vehicle_mass) (h1 : cos
    mission_flight_path_angle ≠ 0) :
    HasDerivAt (fun t => out_load_factor vehicle_mass vehicle_propulsion_thrust_total vehicle_lift t wing_incidence) (J_load_factor__mission_flight_path_angle vehicle_mass vehicle_propulsion_thrust_total vehicle_lift mission_flight_path_angle wing_incidence) mission_flight_path_angle := by
  simp only [out_load_factor, J_load_factor__mission_flight_path_angle, sin_gamma, thrust_across_flightpath_2, sin_alpha, load_factor, cos_gamma, thrust_across_flightpath]
  (apply hasDerivAt_of_eq; on_goal 1 => (repeat' comp_step))
  all_goals try comp_side
  all_goals try simp only [mul_zero, zero_mul, add_zero, zero_add, sub_zero, zero_sub, mul_one, one_mul]
  all_goals try push_cast
  all_goals comp_eq

/-- Every partial derivative set by `TakeoffEOM` is the derivative of its output. -/
theorem partials (gravity vehicle_mass vehicle_propulsion_thrust_total vehicle_lift vehicle_drag
    mission_velocity mission_flight_path_angle wing_incidence takeoff_rolling_friction_coefficient
    : ℝ) (h0 : (vehicle_mass - vehicle_lift) - (vehicle_propulsion_thrust_total * (sin
    ((wing_incidence - wing_incidence) * (π / 180)))) ≠ 0) (h1 : 0 < vehicle_mass) (h2 : cos
    mission_flight_path_angle ≠ 0) :
    HasDerivAt (fun t => out_normal_force t vehicle_propulsion_thrust_total vehicle_lift
      wing_incidence) (J_normal_force__vehicle_mass vehicle_mass vehicle_propulsion_thrust_total
      vehicle_lift wing_incidence) vehicle_mass ∧
    HasDerivAt (fun t => out_normal_force vehicle_mass t vehicle_lift wing_incidence)
      (J_normal_force__vehicle_propulsion_thrust_total vehicle_mass
      vehicle_propulsion_thrust_total vehicle_lift wing_incidence) vehicle_propulsion_thrust_total ∧
    HasDerivAt (fun t => out_normal_force vehicle_mass vehicle_propulsion_thrust_total t
      wing_incidence) (J_normal_force__vehicle_lift vehicle_mass vehicle_propulsion_thrust_total
      vehicle_lift wing_incidence) vehicle_lift ∧
    HasDerivAt (fun t => out_mission_velocity_rate gravity t vehicle_propulsion_thrust_total
      vehicle_lift vehicle_drag mission_flight_path_angle wing_incidence
      takeoff_rolling_friction_coefficient) (J_mission_velocity_rate__vehicle_mass gravity
      vehicle_mass vehicle_propulsion_thrust_total vehicle_lift vehicle_drag
      mission_flight_path_angle wing_incidence takeoff_rolling_friction_coefficient) vehicle_mass ∧
    HasDerivAt (fun t => out_mission_velocity_rate gravity vehicle_mass t vehicle_lift vehicle_drag
      mission_flight_path_angle wing_incidence takeoff_rolling_friction_coefficient)
      (J_mission_velocity_rate__vehicle_propulsion_thrust_total gravity vehicle_mass
      vehicle_propulsion_thrust_total vehicle_lift wing_incidence
      takeoff_rolling_friction_coefficient) vehicle_propulsion_thrust_total ∧
    HasDerivAt (fun t => out_mission_velocity_rate gravity vehicle_mass
      vehicle_propulsion_thrust_total t vehicle_drag mission_flight_path_angle wing_incidence
      takeoff_rolling_friction_coefficient) (J_mission_velocity_rate__vehicle_lift gravity
      vehicle_mass vehicle_propulsion_thrust_total vehicle_lift wing_incidence
      takeoff_rolling_friction_coefficient) vehicle_lift ∧
    HasDerivAt (fun t => out_mission_velocity_rate gravity vehicle_mass
      vehicle_propulsion_thrust_total vehicle_lift t mission_flight_path_angle wing_incidence
      takeoff_rolling_friction_coefficient) (J_mission_velocity_rate__vehicle_drag gravity
      vehicle_mass) vehicle_drag ∧
    HasDerivAt (fun t => out_mission_velocity_rate gravity vehicle_mass
      vehicle_propulsion_thrust_total vehicle_lift vehicle_drag t wing_incidence
      takeoff_rolling_friction_coefficient) (J_mission_velocity_rate__mission_flight_path_angle
      gravity mission_flight_path_angle) mission_flight_path_angle ∧
    HasDerivAt (fun t => out_mission_velocity_rate gravity vehicle_mass
      vehicle_propulsion_thrust_total vehicle_lift vehicle_drag mission_flight_path_angle
      wing_incidence t) (J_mission_velocity_rate__takeoff_rolling_friction_coefficient gravity
      vehicle_mass vehicle_propulsion_thrust_total vehicle_lift wing_incidence)
      takeoff_rolling_friction_coefficient ∧
    HasDerivAt (fun t => out_mission_altitude_rate t mission_flight_path_angle)
      (J_mission_altitude_rate__mission_velocity mission_flight_path_angle) mission_velocity ∧
    HasDerivAt (fun t => out_mission_altitude_rate mission_velocity t)
      (J_mission_altitude_rate__mission_flight_path_angle mission_velocity
      mission_flight_path_angle) mission_flight_path_angle ∧
    HasDerivAt (fun t => out_mission_distance_rate t mission_flight_path_angle)
      (J_mission_distance_rate__mission_velocity mission_flight_path_angle) mission_velocity ∧
    HasDerivAt (fun t => out_mission_distance_rate mission_velocity t)
      (J_mission_distance_rate__mission_flight_path_angle mission_velocity
      mission_flight_path_angle) mission_flight_path_angle ∧
    HasDerivAt (fun t => out_fuselage_pitch t wing_incidence)
      (J_fuselage_pitch__mission_flight_path_angle) mission_flight_path_angle ∧
    HasDerivAt (fun t => out_load_factor t vehicle_propulsion_thrust_total vehicle_lift
      mission_flight_path_angle wing_incidence) (J_load_factor__vehicle_mass vehicle_mass
      vehicle_propulsion_thrust_total vehicle_lift mission_flight_path_angle wing_incidence)
      vehicle_mass ∧
    HasDerivAt (fun t => out_load_factor vehicle_mass t vehicle_lift mission_flight_path_angle
      wing_incidence) (J_load_factor__vehicle_propulsion_thrust_total vehicle_mass
      mission_flight_path_angle wing_incidence) vehicle_propulsion_thrust_total ∧
    HasDerivAt (fun t => out_load_factor vehicle_mass vehicle_propulsion_thrust_total t
      mission_flight_path_angle wing_incidence) (J_load_factor__vehicle_lift vehicle_mass
      mission_flight_path_angle) vehicle_lift ∧
    HasDerivAt (fun t => out_load_factor vehicle_mass vehicle_propulsion_thrust_total vehicle_lift t
      wing_incidence) (J_load_factor__mission_flight_path_angle vehicle_mass
      vehicle_propulsion_thrust_total vehicle_lift mission_flight_path_angle wing_incidence)
      mission_flight_path_angle :=
  ⟨d_normal_force__vehicle_mass _ _ _ _ h0 h0, d_normal_force__vehicle_propulsion_thrust_total _ _
    _ _ h0 h0, d_normal_force__vehicle_lift _ _ _ _ h0 h0, d_mission_velocity_rate__vehicle_mass _
    _ _ _ _ _ _ _ h0 h1 h0, d_mission_velocity_rate__vehicle_propulsion_thrust_total _ _ _ _ _ _ _
    _ h0 h1 h0, d_mission_velocity_rate__vehicle_lift _ _ _ _ _ _ _ _ h0 h1 h0,
    d_mission_velocity_rate__vehicle_drag _ _ _ _ _ _ _ _ h1,
    d_mission_velocity_rate__mission_flight_path_angle _ _ _ _ _ _ _ _ h1,
    d_mission_velocity_rate__takeoff_rolling_friction_coefficient _ _ _ _ _ _ _ _ h1,
    d_mission_altitude_rate__mission_velocity _ _,
    d_mission_altitude_rate__mission_flight_path_angle _ _,
    d_mission_distance_rate__mission_velocity _ _,
    d_mission_distance_rate__mission_flight_path_angle _ _,
    d_fuselage_pitch__mission_flight_path_angle _ _, d_load_factor__vehicle_mass _ _ _ _ _ h1 h2,
    d_load_factor__vehicle_propulsion_thrust_total _ _ _ _ _ h1 h2, d_load_factor__vehicle_lift _
    _ _ _ _ h1 h2, d_load_factor__mission_flight_path_angle _ _ _ _ _ h1 h2⟩

example : ∃ gravity vehicle_mass vehicle_propulsion_thrust_total vehicle_lift vehicle_drag
      mission_velocity mission_flight_path_angle wing_incidence
      takeoff_rolling_friction_coefficient : ℝ,
      (vehicle_mass - vehicle_lift) - (vehicle_propulsion_thrust_total * (sin ((wing_incidence -
        wing_incidence) * (π / 180)))) ≠ 0 ∧
      0 < vehicle_mass ∧
      cos mission_flight_path_angle ≠ 0 :=
  ⟨0, 1, 0, 0, 0, 0, 0, 0, 0, by comp_example, by comp_example, by comp_example⟩

end Verif.Comp.MissionTwoDofOdeTakeoffEom.TakeoffEOM_groundroll_rotation

namespace Verif.Comp.MissionTwoDofOdeTakeoffEom.TakeoffEOM_groundroll_no_rotation
open Real

/-- aviary/mission/two_dof/ode/takeoff_eom.py:235 -/
noncomputable abbrev thrust_along_flightpath (vehicle_propulsion_thrust_total wing_incidence : ℝ) : ℝ :=
  vehicle_propulsion_thrust_total * (cos ((wing_incidence - wing_incidence) * (π / 180)))

/-- aviary/mission/two_dof/ode/takeoff_eom.py:236 -/
noncomputable abbrev thrust_across_flightpath (vehicle_propulsion_thrust_total wing_incidence : ℝ) : ℝ :=
  vehicle_propulsion_thrust_total * (sin ((wing_incidence - wing_incidence) * (π / 180)))

/-- aviary/mission/two_dof/ode/takeoff_eom.py:240 -/
noncomputable abbrev normal_force (vehicle_mass vehicle_propulsion_thrust_total vehicle_lift wing_incidence : ℝ) : ℝ :=
  (vehicle_mass - vehicle_lift) - (thrust_across_flightpath vehicle_propulsion_thrust_total
    wing_incidence)

/-- aviary/mission/two_dof/ode/takeoff_eom.py:241 -/
noncomputable abbrev normal_force_2 (vehicle_mass vehicle_propulsion_thrust_total vehicle_lift wing_incidence : ℝ) : ℝ :=
  if (normal_force vehicle_mass vehicle_propulsion_thrust_total vehicle_lift wing_incidence) < 0
    then 0 else (normal_force vehicle_mass vehicle_propulsion_thrust_total vehicle_lift
    wing_incidence)

/-- aviary/mission/two_dof/ode/takeoff_eom.py:249 -/
noncomputable abbrev cos_gamma (mission_flight_path_angle : ℝ) : ℝ := cos mission_flight_path_angle

/-- aviary/mission/two_dof/ode/takeoff_eom.py:250 -/
noncomputable abbrev sin_gamma (mission_flight_path_angle : ℝ) : ℝ := sin mission_flight_path_angle

/-- aviary/mission/two_dof/ode/takeoff_eom.py:272 -/
noncomputable abbrev load_factor (vehicle_mass vehicle_propulsion_thrust_total vehicle_lift mission_flight_path_angle wing_incidence : ℝ) : ℝ :=
  (vehicle_lift + (thrust_across_flightpath vehicle_propulsion_thrust_total wing_incidence)) /
    (vehicle_mass * (cos_gamma mission_flight_path_angle))

/-- aviary/mission/two_dof/ode/takeoff_eom.py:304 -/
noncomputable abbrev cos_alpha (wing_incidence : ℝ) : ℝ :=
  cos ((wing_incidence - wing_incidence) * (π / 180))

/-- aviary/mission/two_dof/ode/takeoff_eom.py:305 -/
noncomputable abbrev sin_alpha (wing_incidence : ℝ) : ℝ :=
  sin ((wing_incidence - wing_incidence) * (π / 180))

/-- aviary/mission/two_dof/ode/takeoff_eom.py:309 -/
noncomputable abbrev thrust_along_flightpath_2 (vehicle_propulsion_thrust_total wing_incidence : ℝ) : ℝ :=
  vehicle_propulsion_thrust_total * (cos_alpha wing_incidence)

/-- aviary/mission/two_dof/ode/takeoff_eom.py:310 -/
noncomputable abbrev thrust_across_flightpath_2 (vehicle_propulsion_thrust_total wing_incidence : ℝ) : ℝ :=
  vehicle_propulsion_thrust_total * (sin_alpha wing_incidence)

/-- aviary/mission/two_dof/ode/takeoff_eom.py:336 -/
noncomputable abbrev normal_force_3 (vehicle_mass vehicle_propulsion_thrust_total vehicle_lift wing_incidence : ℝ) : ℝ :=
  (vehicle_mass - vehicle_lift) - (thrust_across_flightpath_2 vehicle_propulsion_thrust_total
    wing_incidence)

/-- aviary/mission/two_dof/ode/takeoff_eom.py:341 -/
noncomputable abbrev normal_force_4 (vehicle_mass vehicle_propulsion_thrust_total vehicle_lift wing_incidence : ℝ) : ℝ :=
  if (normal_force_3 vehicle_mass vehicle_propulsion_thrust_total vehicle_lift wing_incidence) <
    0 then 0 else (normal_force_3 vehicle_mass vehicle_propulsion_thrust_total vehicle_lift
    wing_incidence)

/-- aviary/mission/two_dof/ode/takeoff_eom.py:344 -/
noncomputable abbrev dnf_dweight (vehicle_mass vehicle_propulsion_thrust_total vehicle_lift wing_incidence : ℝ) : ℝ :=
  if (normal_force_3 vehicle_mass vehicle_propulsion_thrust_total vehicle_lift wing_incidence) <
    0 then 0 else 1

/-- aviary/mission/two_dof/ode/takeoff_eom.py:347 -/
noncomputable abbrev dnf_dlift (vehicle_mass vehicle_propulsion_thrust_total vehicle_lift wing_incidence : ℝ) : ℝ :=
  if (normal_force_3 vehicle_mass vehicle_propulsion_thrust_total vehicle_lift wing_incidence) <
    0 then 0 else (-1)

/-- aviary/mission/two_dof/ode/takeoff_eom.py:349 -/
noncomputable abbrev dnf_dthrust (wing_incidence : ℝ) : ℝ := (-1) * (sin_alpha wing_incidence)

/-- aviary/mission/two_dof/ode/takeoff_eom.py:350 -/
noncomputable abbrev dnf_dthrust_2 (vehicle_mass vehicle_propulsion_thrust_total vehicle_lift wing_incidence : ℝ) : ℝ :=
  if (normal_force_3 vehicle_mass vehicle_propulsion_thrust_total vehicle_lift wing_incidence) <
    0 then 0 else (dnf_dthrust wing_incidence)

/-- Output `normal_force` of `TakeoffEOM.compute`, aviary/mission/two_dof/ode/takeoff_eom.py:242 -/
noncomputable def out_normal_force (vehicle_mass vehicle_propulsion_thrust_total vehicle_lift wing_incidence : ℝ) : ℝ :=
  normal_force_2 vehicle_mass vehicle_propulsion_thrust_total vehicle_lift wing_incidence

/-- Output `mission_velocity_rate` of `TakeoffEOM.compute`, aviary/mission/two_dof/ode/takeoff_eom.py:252 -/
noncomputable def out_mission_velocity_rate (gravity vehicle_mass vehicle_propulsion_thrust_total vehicle_lift vehicle_drag mission_flight_path_angle wing_incidence takeoff_rolling_friction_coefficient : ℝ) : ℝ :=
  (((((thrust_along_flightpath vehicle_propulsion_thrust_total wing_incidence) - vehicle_drag) -
    (vehicle_mass * (sin_gamma mission_flight_path_angle))) -
    (takeoff_rolling_friction_coefficient * (normal_force_2 vehicle_mass
    vehicle_propulsion_thrust_total vehicle_lift wing_incidence))) * gravity) / vehicle_mass

/-- Output `mission_flight_path_angle_rate` of `TakeoffEOM.compute`, aviary/mission/two_dof/ode/takeoff_eom.py:259 -/
noncomputable def out_mission_flight_path_angle_rate : ℝ := 0

/-- Output `mission_altitude_rate` of `TakeoffEOM.compute`, aviary/mission/two_dof/ode/takeoff_eom.py:267 -/
noncomputable def out_mission_altitude_rate (mission_velocity mission_flight_path_angle : ℝ) : ℝ :=
  mission_velocity * (sin_gamma mission_flight_path_angle)

/-- Output `mission_distance_rate` of `TakeoffEOM.compute`, aviary/mission/two_dof/ode/takeoff_eom.py:268 -/
noncomputable def out_mission_distance_rate (mission_velocity mission_flight_path_angle : ℝ) : ℝ :=
  mission_velocity * (cos_gamma mission_flight_path_angle)

/-- Output `fuselage_pitch` of `TakeoffEOM.compute`, aviary/mission/two_dof/ode/takeoff_eom.py:270 -/
noncomputable def out_fuselage_pitch (mission_flight_path_angle wing_incidence : ℝ) : ℝ :=
  ((mission_flight_path_angle * (1 / (π / 180))) - wing_incidence) + wing_incidence

/-- Output `load_factor` of `TakeoffEOM.compute`, aviary/mission/two_dof/ode/takeoff_eom.py:273 -/
noncomputable def out_load_factor (vehicle_mass vehicle_propulsion_thrust_total vehicle_lift mission_flight_path_angle wing_incidence : ℝ) : ℝ :=
  load_factor vehicle_mass vehicle_propulsion_thrust_total vehicle_lift
    mission_flight_path_angle wing_incidence

/-- Output `angle_of_attack_rate` of `TakeoffEOM.compute`, aviary/mission/two_dof/ode/takeoff_eom.py:278 -/
noncomputable def out_angle_of_attack_rate : ℝ := 0

/-- Partial of `fuselage_pitch` with respect to `mission_flight_path_angle` as set by `TakeoffEOM`, aviary/mission/two_dof/ode/takeoff_eom.py:206 -/
noncomputable def J_fuselage_pitch__mission_flight_path_angle : ℝ := 1 / (π / 180)

/-- Partial of `load_factor` with respect to `vehicle_lift` as set by `TakeoffEOM`, aviary/mission/two_dof/ode/takeoff_eom.py:320 -/
noncomputable def J_load_factor__vehicle_lift (vehicle_mass mission_flight_path_angle : ℝ) : ℝ :=
  1 / (vehicle_mass * (cos_gamma mission_flight_path_angle))

/-- Partial of `load_factor` with respect to `vehicle_mass` as set by `TakeoffEOM`, aviary/mission/two_dof/ode/takeoff_eom.py:321 -/
noncomputable def J_load_factor__vehicle_mass (vehicle_mass vehicle_propulsion_thrust_total vehicle_lift mission_flight_path_angle wing_incidence : ℝ) : ℝ :=
  (-(vehicle_lift + (thrust_across_flightpath_2 vehicle_propulsion_thrust_total
    wing_incidence))) / ((vehicle_mass ^ 2) * (cos_gamma mission_flight_path_angle))

/-- Partial of `load_factor` with respect to `mission_flight_path_angle` as set by `TakeoffEOM`, aviary/mission/two_dof/ode/takeoff_eom.py:326 -/
noncomputable def J_load_factor__mission_flight_path_angle (vehicle_mass vehicle_propulsion_thrust_total vehicle_lift mission_flight_path_angle wing_incidence : ℝ) : ℝ :=
  ((-(vehicle_lift + (thrust_across_flightpath_2 vehicle_propulsion_thrust_total
    wing_incidence))) / (vehicle_mass * ((cos_gamma mission_flight_path_angle) ^ 2))) *
    (-(sin_gamma mission_flight_path_angle))

/-- Partial of `load_factor` with respect to `vehicle_propulsion_thrust_total` as set by `TakeoffEOM`, aviary/mission/two_dof/ode/takeoff_eom.py:331 -/
noncomputable def J_load_factor__vehicle_propulsion_thrust_total (vehicle_mass mission_flight_path_angle wing_incidence : ℝ) : ℝ :=
  (sin_alpha wing_incidence) / (vehicle_mass * (cos_gamma mission_flight_path_angle))

/-- Partial of `mission_velocity_rate` with respect to `vehicle_propulsion_thrust_total` as set by `TakeoffEOM`, aviary/mission/two_dof/ode/takeoff_eom.py:355 -/
noncomputable def J_mission_velocity_rate__vehicle_propulsion_thrust_total (gravity vehicle_mass vehicle_propulsion_thrust_total vehicle_lift wing_incidence takeoff_rolling_friction_coefficient : ℝ) : ℝ :=
  (((cos_alpha wing_incidence) - (takeoff_rolling_friction_coefficient * (dnf_dthrust_2
    vehicle_mass vehicle_propulsion_thrust_total vehicle_lift wing_incidence))) * gravity) /
    vehicle_mass

/-- Partial of `mission_velocity_rate` with respect to `vehicle_drag` as set by `TakeoffEOM`, aviary/mission/two_dof/ode/takeoff_eom.py:359 -/
noncomputable def J_mission_velocity_rate__vehicle_drag (gravity vehicle_mass : ℝ) : ℝ :=
  (-gravity) / vehicle_mass

/-- Partial of `mission_velocity_rate` with respect to `vehicle_mass` as set by `TakeoffEOM`, aviary/mission/two_dof/ode/takeoff_eom.py:360 -/
noncomputable def J_mission_velocity_rate__vehicle_mass (gravity vehicle_mass vehicle_propulsion_thrust_total vehicle_lift vehicle_drag mission_flight_path_angle wing_incidence takeoff_rolling_friction_coefficient : ℝ) : ℝ :=
  (gravity * ((vehicle_mass * ((-(sin_gamma mission_flight_path_angle)) -
    (takeoff_rolling_friction_coefficient * (dnf_dweight vehicle_mass
    vehicle_propulsion_thrust_total vehicle_lift wing_incidence)))) -
    ((((thrust_along_flightpath_2 vehicle_propulsion_thrust_total wing_incidence) -
    vehicle_drag) - (vehicle_mass * (sin_gamma mission_flight_path_angle))) -
    (takeoff_rolling_friction_coefficient * (normal_force_4 vehicle_mass
    vehicle_propulsion_thrust_total vehicle_lift wing_incidence))))) / (vehicle_mass ^ 2)

/-- Partial of `mission_velocity_rate` with respect to `mission_flight_path_angle` as set by `TakeoffEOM`, aviary/mission/two_dof/ode/takeoff_eom.py:374 -/
noncomputable def J_mission_velocity_rate__mission_flight_path_angle (gravity mission_flight_path_angle : ℝ) : ℝ :=
  (-(cos_gamma mission_flight_path_angle)) * gravity

/-- Partial of `mission_velocity_rate` with respect to `vehicle_lift` as set by `TakeoffEOM`, aviary/mission/two_dof/ode/takeoff_eom.py:377 -/
noncomputable def J_mission_velocity_rate__vehicle_lift (gravity vehicle_mass vehicle_propulsion_thrust_total vehicle_lift wing_incidence takeoff_rolling_friction_coefficient : ℝ) : ℝ :=
  (gravity * ((-takeoff_rolling_friction_coefficient) * (dnf_dlift vehicle_mass
    vehicle_propulsion_thrust_total vehicle_lift wing_incidence))) / vehicle_mass

/-- Partial of `mission_velocity_rate` with respect to `takeoff_rolling_friction_coefficient` as set by `TakeoffEOM`, aviary/mission/two_dof/ode/takeoff_eom.py:380 -/
noncomputable def J_mission_velocity_rate__takeoff_rolling_friction_coefficient (gravity vehicle_mass vehicle_propulsion_thrust_total vehicle_lift wing_incidence : ℝ) : ℝ :=
  ((-(normal_force_4 vehicle_mass vehicle_propulsion_thrust_total vehicle_lift wing_incidence))
    * gravity) / vehicle_mass

/-- Partial of `mission_altitude_rate` with respect to `mission_velocity` as set by `TakeoffEOM`, aviary/mission/two_dof/ode/takeoff_eom.py:384 -/
noncomputable def J_mission_altitude_rate__mission_velocity (mission_flight_path_angle : ℝ) : ℝ :=
  sin_gamma mission_flight_path_angle

/-- Partial of `mission_altitude_rate` with respect to `mission_flight_path_angle` as set by `TakeoffEOM`, aviary/mission/two_dof/ode/takeoff_eom.py:385 -/
noncomputable def J_mission_altitude_rate__mission_flight_path_angle (mission_velocity mission_flight_path_angle : ℝ) : ℝ :=
  mission_velocity * (cos_gamma mission_flight_path_angle)

/-- Partial of `mission_distance_rate` with respect to `mission_velocity` as set by `TakeoffEOM`, aviary/mission/two_dof/ode/takeoff_eom.py:439 -/
noncomputable def J_mission_distance_rate__mission_velocity (mission_flight_path_angle : ℝ) : ℝ :=
  cos_gamma mission_flight_path_angle

/-- Partial of `mission_distance_rate` with respect to `mission_flight_path_angle` as set by `TakeoffEOM`, aviary/mission/two_dof/ode/takeoff_eom.py:440 -/
noncomputable def J_mission_distance_rate__mission_flight_path_angle (mission_velocity mission_flight_path_angle : ℝ) : ℝ :=
  (-mission_velocity) * (sin_gamma mission_flight_path_angle)

/-- Partial of `normal_force` with respect to `vehicle_mass` as set by `TakeoffEOM`, aviary/mission/two_dof/ode/takeoff_eom.py:443 -/
noncomputable def J_normal_force__vehicle_mass (vehicle_mass vehicle_propulsion_thrust_total vehicle_lift wing_incidence : ℝ) : ℝ :=
  dnf_dweight vehicle_mass vehicle_propulsion_thrust_total vehicle_lift wing_incidence

/-- Partial of `normal_force` with respect to `vehicle_lift` as set by `TakeoffEOM`, aviary/mission/two_dof/ode/takeoff_eom.py:444 -/
noncomputable def J_normal_force__vehicle_lift (vehicle_mass vehicle_propulsion_thrust_total vehicle_lift wing_incidence : ℝ) : ℝ :=
  dnf_dlift vehicle_mass vehicle_propulsion_thrust_total vehicle_lift wing_incidence

/-- Partial of `normal_force` with respect to `vehicle_propulsion_thrust_total` as set by `TakeoffEOM`, aviary/mission/two_dof/ode/takeoff_eom.py:445 -/
noncomputable def J_normal_force__vehicle_propulsion_thrust_total (vehicle_mass vehicle_propulsion_thrust_total vehicle_lift wing_incidence : ℝ) : ℝ :=
  dnf_dthrust_2 vehicle_mass vehicle_propulsion_thrust_total vehicle_lift wing_incidence

theorem d_normal_force__vehicle_mass (vehicle_mass vehicle_propulsion_thrust_total vehicle_lift
    wing_incidence : ℝ) (h0 : (vehicle_mass - vehicle_lift) - (vehicle_propulsion_thrust_total *
    (sin ((wing_incidence - wing_incidence) * (π / 180)))) ≠ 0) (h1 : (vehicle_mass -
    vehicle_lift) - (vehicle_propulsion_thrust_total * (sin ((wing_incidence - wing_incidence) *
    (π / 180)))) ≠ 0) :
    HasDerivAt (fun t => out_normal_force t vehicle_propulsion_thrust_total vehicle_lift wing_incidence) (J_normal_force__vehicle_mass vehicle_mass vehicle_propulsion_thrust_total vehicle_lift wing_incidence) vehicle_mass := by
  simp only [out_normal_force, J_normal_force__vehicle_mass, dnf_dweight, normal_force_3, thrust_across_flightpath_2, sin_alpha, normal_force_2, normal_force, thrust_across_flightpath]
  try split_ifs
  all_goals (apply hasDerivAt_of_eq; on_goal 1 => (repeat' comp_step))
  all_goals try comp_side
  all_goals try split_ifs
  all_goals try (exfalso; linarith)
  all_goals try simp only [mul_zero, zero_mul, add_zero, zero_add, sub_zero, zero_sub, mul_one, one_mul]
  all_goals try push_cast
  all_goals comp_eq

theorem d_normal_force__vehicle_propulsion_thrust_total (vehicle_mass
    vehicle_propulsion_thrust_total vehicle_lift wing_incidence : ℝ) (h0 : (vehicle_mass -
    vehicle_lift) - (vehicle_propulsion_thrust_total * (sin ((wing_incidence - wing_incidence) *
    (π / 180)))) ≠ 0) (h1 : (vehicle_mass - vehicle_lift) - (vehicle_propulsion_thrust_total *
    (sin ((wing_incidence - wing_incidence) * (π / 180)))) ≠ 0) :
    HasDerivAt (fun t => out_normal_force vehicle_mass t vehicle_lift wing_incidence) (J_normal_force__vehicle_propulsion_thrust_total vehicle_mass vehicle_propulsion_thrust_total vehicle_lift wing_incidence) vehicle_propulsion_thrust_total := by
  simp only [out_normal_force, J_normal_force__vehicle_propulsion_thrust_total, dnf_dthrust_2, dnf_dthrust, normal_force_3, thrust_across_flightpath_2, sin_alpha, normal_force_2, normal_force, thrust_across_flightpath]
  try split_ifs
  all_goals (apply hasDerivAt_of_eq; on_goal 1 => (repeat' comp_step))
  all_goals try comp_side
  all_goals try split_ifs
  all_goals try (exfalso; linarith)
  all_goals try simp only [mul_zero, zero_mul, add_zero, zero_add, sub_zero, zero_sub, mul_one, one_mul]
  all_goals try push_cast
  all_goals comp_eq

theorem d_normal_force__vehicle_lift (vehicle_mass vehicle_propulsion_thrust_total vehicle_lift
    wing_incidence : ℝ) (h0 : (vehicle_mass - vehicle_lift) - (vehicle_propulsion_thrust_total *
    (sin ((wing_incidence - wing_incidence) * (π / 180)))) ≠ 0) (h1 : (vehicle_mass -
    vehicle_lift) - (vehicle_propulsion_thrust_total * (sin ((wing_incidence - wing_incidence) *
    (π / 180)))) ≠ 0) :
    HasDerivAt (fun t => out_normal_force vehicle_mass vehicle_propulsion_thrust_total t wing_incidence) (J_normal_force__vehicle_lift vehicle_mass vehicle_propulsion_thrust_total vehicle_lift wing_incidence) vehicle_lift := by
  simp only [out_normal_force, J_normal_force__vehicle_lift, dnf_dlift, normal_force_3, thrust_across_flightpath_2, sin_alpha, normal_force_2, normal_force, thrust_across_flightpath]
  try split_ifs
  all_goals (apply hasDerivAt_of_eq; on_goal 1 => (repeat' comp_step))
  all_goals try comp_side
  all_goals try split_ifs
  all_goals try (exfalso; linarith)
  all_goals try simp only [mul_zero, zero_mul, add_zero, zero_add, sub_zero, zero_sub, mul_one, one_mul]
  all_goals try push_cast
  all_goals comp_eq

theorem d_mission_velocity_rate__vehicle_mass (gravity vehicle_mass
    vehicle_propulsion_thrust_total vehicle_lift vehicle_drag mission_flight_path_angle
    wing_incidence takeoff_rolling_friction_coefficient : ℝ) (h0 : (vehicle_mass - vehicle_lift) -
    (vehicle_propulsion_thrust_total * (sin ((wing_incidence - wing_incidence) * (π / 180)))) ≠ 0)
    (h1 : 0 < vehicle_mass) (h2 : (vehicle_mass - vehicle_lift) - (vehicle_propulsion_thrust_total
    * (sin ((wing_incidence - wing_incidence) * (π / 180)))) ≠ 0) :
    HasDerivAt (fun t => out_mission_velocity_rate gravity t vehicle_propulsion_thrust_total vehicle_lift vehicle_drag mission_flight_path_angle wing_incidence takeoff_rolling_friction_coefficient) (J_mission_velocity_rate__vehicle_mass gravity vehicle_mass vehicle_propulsion_thrust_total vehicle_lift vehicle_drag mission_flight_path_angle wing_incidence takeoff_rolling_friction_coefficient) vehicle_mass := by
  simp only [out_mission_velocity_rate, J_mission_velocity_rate__vehicle_mass, normal_force_4, thrust_along_flightpath_2, cos_alpha, dnf_dweight, normal_force_3, thrust_across_flightpath_2, sin_alpha, normal_force_2, normal_force, thrust_across_flightpath, sin_gamma, thrust_along_flightpath]
  try split_ifs
  all_goals (apply hasDerivAt_of_eq; on_goal 1 => (repeat' comp_step))
  all_goals try comp_side
  all_goals try split_ifs
  all_goals try (exfalso; linarith)
  all_goals try simp only [mul_zero, zero_mul, add_zero, zero_add, sub_zero, zero_sub, mul_one, one_mul]
  all_goals try push_cast
  all_goals comp_eq

theorem d_mission_velocity_rate__vehicle_propulsion_thrust_total (gravity vehicle_mass
    vehicle_propulsion_thrust_total vehicle_lift vehicle_drag mission_flight_path_angle
    wing_incidence takeoff_rolling_friction_coefficient : ℝ) (h0 : (vehicle_mass - vehicle_lift) -
    (vehicle_propulsion_thrust_total * (sin ((wing_incidence - wing_incidence) * (π / 180)))) ≠ 0)
    (h1 : 0 < vehicle_mass) (h2 : (vehicle_mass - vehicle_lift) - (vehicle_propulsion_thrust_total
    * (sin ((wing_incidence - wing_incidence) * (π / 180)))) ≠ 0) :
    HasDerivAt (fun t => out_mission_velocity_rate gravity vehicle_mass t vehicle_lift vehicle_drag mission_flight_path_angle wing_incidence takeoff_rolling_friction_coefficient) (J_mission_velocity_rate__vehicle_propulsion_thrust_total gravity vehicle_mass vehicle_propulsion_thrust_total vehicle_lift wing_incidence takeoff_rolling_friction_coefficient) vehicle_propulsion_thrust_total := by
  simp only [out_mission_velocity_rate, J_mission_velocity_rate__vehicle_propulsion_thrust_total, dnf_dthrust_2, dnf_dthrust, normal_force_3, thrust_across_flightpath_2, sin_alpha, cos_alpha, normal_force_2, normal_force, thrust_across_flightpath, sin_gamma, thrust_along_flightpath]
  try split_ifs
  all_goals (apply hasDerivAt_of_eq; on_goal 1 => (repeat' comp_step))
  all_goals try comp_side
  all_goals try split_ifs
  all_goals try (exfalso; linarith)
  all_goals try simp only [mul_zero, zero_mul, add_zero, zero_add, sub_zero, zero_sub, mul_one, one_mul]
  all_goals try push_cast
  all_goals comp_eq

theorem d_mission_velocity_rate__vehicle_lift (gravity vehicle_mass
    vehicle_propulsion_thrust_total vehicle_lift vehicle_drag mission_flight_path_angle
    wing_incidence takeoff_rolling_friction_coefficient : ℝ) (h0 : (vehicle_mass - vehicle_lift) -
    (vehicle_propulsion_thrust_total * (sin ((wing_incidence - wing_incidence) * (π / 180)))) ≠ 0)
    (h1 : 0 < vehicle_mass) (h2 : (vehicle_mass - vehicle_lift) - (vehicle_propulsion_thrust_total
    * (sin ((wing_incidence - wing_incidence) * (π / 180)))) ≠ 0) :
    HasDerivAt (fun t => out_mission_velocity_rate gravity vehicle_mass vehicle_propulsion_thrust_total t vehicle_drag mission_flight_path_angle wing_incidence takeoff_rolling_friction_coefficient) (J_mission_velocity_rate__vehicle_lift gravity vehicle_mass vehicle_propulsion_thrust_total vehicle_lift wing_incidence takeoff_rolling_friction_coefficient) vehicle_lift := by
  simp only [out_mission_velocity_rate, J_mission_velocity_rate__vehicle_lift, dnf_dlift, normal_force_3, thrust_across_flightpath_2, sin_alpha, normal_force_2, normal_force, thrust_across_flightpath, sin_gamma, thrust_along_flightpath]
  try split_ifs
  all_goals (apply hasDerivAt_of_eq; on_goal 1 => (repeat' comp_step))
  all_goals try comp_side
  all_goals try split_ifs
  all_goals try (exfalso; linarith)
  all_goals try simp only [mul_zero, zero_mul, add_zero, zero_add, sub_zero, zero_sub, mul_one, one_mul]
  all_goals try push_cast
  all_goals comp_eq

theorem d_mission_velocity_rate__vehicle_drag (gravity vehicle_mass
    vehicle_propulsion_thrust_total vehicle_lift vehicle_drag mission_flight_path_angle
    wing_incidence takeoff_rolling_friction_coefficient : ℝ) (h0 : 0 < vehicle_mass) :
    HasDerivAt (fun t => out_mission_velocity_rate gravity vehicle_mass vehicle_propulsion_thrust_total vehicle_lift t mission_flight_path_angle wing_incidence takeoff_rolling_friction_coefficient) (J_mission_velocity_rate__vehicle_drag gravity vehicle_mass) vehicle_drag := by
  simp only [out_mission_velocity_rate, J_mission_velocity_rate__vehicle_drag, normal_force_2, normal_force, thrust_across_flightpath, sin_gamma, thrust_along_flightpath]
  try split_ifs
  all_goals (apply hasDerivAt_of_eq; on_goal 1 => (repeat' comp_step))
  all_goals try comp_side
  all_goals try split_ifs
  all_goals try (exfalso; linarith)
  all_goals try simp only [mul_zero, zero_mul, add_zero, zero_add, sub_zero, zero_sub, mul_one, one_mul]
  all_goals try push_cast
  all_goals comp_eq

theorem d_mission_velocity_rate__mission_flight_path_angle (gravity vehicle_mass
    vehicle_propulsion_thrust_total vehicle_lift vehicle_drag mission_flight_path_angle
    wing_incidence takeoff_rolling_friction_coefficient : ℝ) (h0 : 0 < vehicle_mass) :
    HasDerivAt (fun t => out_mission_velocity_rate gravity vehicle_mass vehicle_propulsion_thrust_total vehicle_lift vehicle_drag t wing_incidence takeoff_rolling_friction_coefficient) (J_mission_velocity_rate__mission_flight_path_angle gravity mission_flight_path_angle) mission_flight_path_angle := by
  simp only [out_mission_velocity_rate, J_mission_velocity_rate__mission_flight_path_angle, cos_gamma, normal_force_2, normal_force, thrust_across_flightpath, sin_gamma, thrust_along_flightpath]
  try split_ifs
  all_goals (apply hasDerivAt_of_eq; on_goal 1 => (repeat' comp_step))
  all_goals try comp_side
  all_goals try split_ifs
  all_goals try (exfalso; linarith)
  all_goals try simp only [mul_zero, zero_mul, add_zero, zero_add, sub_zero, zero_sub, mul_one, one_mul]
  all_goals try push_cast
  all_goals comp_eq

theorem d_mission_velocity_rate__takeoff_rolling_friction_coefficient (gravity vehicle_mass
    vehicle_propulsion_thrust_total vehicle_lift vehicle_drag mission_flight_path_angle
    wing_incidence takeoff_rolling_friction_coefficient : ℝ) (h0 : 0 < vehicle_mass) :
    HasDerivAt (fun t => out_mission_velocity_rate gravity vehicle_mass vehicle_propulsion_thrust_total vehicle_lift vehicle_drag mission_flight_path_angle wing_incidence t) (J_mission_velocity_rate__takeoff_rolling_friction_coefficient gravity vehicle_mass vehicle_propulsion_thrust_total vehicle_lift wing_incidence) takeoff_rolling_friction_coefficient := by
  simp only [out_mission_velocity_rate, J_mission_velocity_rate__takeoff_rolling_friction_coefficient, normal_force_4, normal_force_3, thrust_across_flightpath_2, sin_alpha, normal_force_2, normal_force, thrust_across_flightpath, sin_gamma, thrust_along_flightpath]
  try split_ifs
  all_goals (apply hasDerivAt_of_eq; on_goal 1 => (repeat' comp_step))
  all_goals try comp_side
  all_goals try split_ifs
  all_goals try (exfalso; linarith)
  all_goals try simp only [mul_zero, zero_mul, add_zero, zero_add, sub_zero, zero_sub, mul_one, one_mul]
  all_goals try push_cast
  all_goals comp_eq

theorem d_mission_altitude_rate__mission_velocity (mission_velocity mission_flight_path_angle : ℝ)
    :
    HasDerivAt (fun t => out_mission_altitude_rate t mission_flight_path_angle) (J_mission_altitude_rate__mission_velocity mission_flight_path_angle) mission_velocity := by
  simp only [out_mission_altitude_rate, J_mission_altitude_rate__mission_velocity, sin_gamma]
  (apply hasDerivAt_of_eq; on_goal 1 => (repeat' comp_step))
  all_goals try comp_side
  all_goals try simp only [mul_zero, zero_mul, add_zero, zero_add, sub_zero, zero_sub, mul_one, one_mul]
  all_goals try push_cast
  all_goals comp_eq

theorem d_mission_altitude_rate__mission_flight_path_angle (mission_velocity
    mission_flight_path_angle : ℝ)  :
    HasDerivAt (fun t => out_mission_altitude_rate mission_velocity t) (J_mission_altitude_rate__mission_flight_path_angle mission_velocity mission_flight_path_angle) mission_flight_path_angle := by
  simp only [out_mission_altitude_rate, J_mission_altitude_rate__mission_flight_path_angle, cos_gamma, sin_gamma]
  (apply hasDerivAt_of_eq; on_goal 1 => (repeat' comp_step))
  all_goals try comp_side
  all_goals try simp only [mul_zero, zero_mul, add_zero, zero_add, sub_zero, zero_sub, mul_one, one_mul]
  all_goals try push_cast
  all_goals comp_eq

theorem d_mission_distance_rate__mission_velocity (mission_velocity mission_flight_path_angle : ℝ)
    :
    HasDerivAt (fun t => out_mission_distance_rate t mission_flight_path_angle) (J_mission_distance_rate__mission_velocity mission_flight_path_angle) mission_velocity := by
  simp only [out_mission_distance_rate, J_mission_distance_rate__mission_velocity, cos_gamma]
  (apply hasDerivAt_of_eq; on_goal 1 => (repeat' comp_step))
  all_goals try comp_side
  all_goals try simp only [mul_zero, zero_mul, add_zero, zero_add, sub_zero, zero_sub, mul_one, one_mul]
  all_goals try push_cast
  all_goals comp_eq

theorem d_mission_distance_rate__mission_flight_path_angle (mission_velocity
    mission_flight_path_angle : ℝ)  :
    HasDerivAt (fun t => out_mission_distance_rate mission_velocity t) (J_mission_distance_rate__mission_flight_path_angle mission_velocity mission_flight_path_angle) mission_flight_path_angle := by
  simp only [out_mission_distance_rate, J_mission_distance_rate__mission_flight_path_angle, sin_gamma, cos_gamma]
  (apply hasDerivAt_of_eq; on_goal 1 => (repeat' comp_step))
  all_goals try comp_side
  all_goals try simp only [mul_zero, zero_mul, add_zero, zero_add, sub_zero, zero_sub, mul_one, one_mul]
  all_goals try push_cast
  all_goals comp_eq

theorem d_fuselage_pitch__mission_flight_path_angle (mission_flight_path_angle wing_incidence : ℝ)
    :
    HasDerivAt (fun t => out_fuselage_pitch t wing_incidence) (J_fuselage_pitch__mission_flight_path_angle) mission_flight_path_angle := by
  simp only [out_fuselage_pitch, J_fuselage_pitch__mission_flight_path_angle]
  (apply hasDerivAt_of_eq; on_goal 1 => (repeat' comp_step))
  all_goals try comp_side
  all_goals try simp only [mul_zero, zero_mul, add_zero, zero_add, sub_zero, zero_sub, mul_one, one_mul]
  all_goals try push_cast
  all_goals comp_eq

theorem d_load_factor__vehicle_mass (vehicle_mass vehicle_propulsion_thrust_total vehicle_lift
    mission_flight_path_angle wing_incidence : ℝ) (h0 : 0 < vehicle_mass) (h1 : cos
    mission_flight_path_angle ≠ 0) :
    HasDerivAt (fun t => out_load_factor t vehicle_propulsion_thrust_total vehicle_lift mission_flight_path_angle wing_incidence) (J_load_factor__vehicle_mass vehicle_mass vehicle_propulsion_thrust_total vehicle_lift mission_flight_path_angle wing_incidence) vehicle_mass := by
  simp only [out_load_factor, J_load_factor__vehicle_mass, thrust_across_flightpath_2, sin_alpha, load_factor, cos_gamma, thrust_across_flightpath]
  (apply hasDerivAt_of_eq; on_goal 1 => (repeat' comp_step))
  all_goals try comp_side
  all_goals try simp only [mul_zero, zero_mul, add_zero, zero_add, sub_zero, zero_sub, mul_one, one_mul]
  all_goals try push_cast
  all_goals comp_eq

theorem d_load_factor__vehicle_propulsion_thrust_total (vehicle_mass
    vehicle_propulsion_thrust_total vehicle_lift mission_flight_path_angle wing_incidence : ℝ) (h0
    : 0 < vehicle_mass) (h1 : cos mission_flight_path_angle ≠ 0) :
    HasDerivAt (fun t => out_load_factor vehicle_mass t vehicle_lift mission_flight_path_angle wing_incidence) (J_load_factor__vehicle_propulsion_thrust_total vehicle_mass mission_flight_path_angle wing_incidence) vehicle_propulsion_thrust_total := by
  simp only [out_load_factor, J_load_factor__vehicle_propulsion_thrust_total, sin_alpha, load_factor, cos_gamma, thrust_across_flightpath]
  (apply hasDerivAt_of_eq; on_goal 1 => (repeat' comp_step))
  all_goals try comp_side
  all_goals try simp only [mul_zero, zero_mul, add_zero, zero_add, sub_zero, zero_sub, mul_one, one_mul]
  all_goals try push_cast
  all_goals comp_eq

theorem d_load_factor__vehicle_lift (vehicle_mass vehicle_propulsion_thrust_total vehicle_lift
    mission_flight_path_angle wing_incidence : ℝ) (h0 : 0 < vehicle_mass) (h1 : cos
    mission_flight_path_angle ≠ 0) :
    HasDerivAt (fun t => out_load_factor vehicle_mass vehicle_propulsion_thrust_total t mission_flight_path_angle wing_incidence) (J_load_factor__vehicle_lift vehicle_mass mission_flight_path_angle) vehicle_lift := by
  simp only [out_load_factor, J_load_factor__vehicle_lift, load_factor, cos_gamma, thrust_across_flightpath]
  (apply hasDerivAt_of_eq; on_goal 1 => (repeat' comp_step))
  all_goals try comp_side
  all_goals try simp only [mul_zero, zero_mul, add_zero, zero_add, sub_zero, zero_sub, mul_one, one_mul]
  all_goals try push_cast
  all_goals comp_eq

theorem d_load_factor__mission_flight_path_angle (vehicle_mass vehicle_propulsion_thrust_total
    vehicle_lift mission_flight_path_angle wing_incidence : ℝ) (h0 : 0 < vehicle_mass) (h1 : cos
    mission_flight_path_angle ≠ 0) :
    HasDerivAt (fun t => out_load_factor vehicle_mass vehicle_propulsion_thrust_total vehicle_lift t wing_incidence) (J_load_factor__mission_flight_path_angle vehicle_mass vehicle_propulsion_thrust_total vehicle_lift mission_flight_path_angle wing_incidence) mission_flight_path_angle := by
  simp only [out_load_factor, J_load_factor__mission_flight_path_angle, sin_gamma, thrust_across_flightpath_2, sin_alpha, load_factor, cos_gamma, thrust_across_flightpath]
  (apply hasDerivAt_of_eq; on_goal 1 => (repeat' comp_step))
  all_goals try comp_side
  all_goals try simp only [mul_zero, zero_mul, add_zero, zero_add, sub_zero, zero_sub, mul_one, one_mul]
  all_goals try push_cast
  all_goals comp_eq

/-- Every partial derivative set by `TakeoffEOM` is the derivative of its output. -/
theorem partials (gravity vehicle_mass vehicle_propulsion_thrust_total vehicle_lift vehicle_drag
    mission_velocity mission_flight_path_angle wing_incidence takeoff_rolling_friction_coefficient
    : ℝ) (h0 : (vehicle_mass - vehicle_lift) - (vehicle_propulsion_thrust_total * (sin
    ((wing_incidence - wing_incidence) * (π / 180)))) ≠ 0) (h1 : 0 < vehicle_mass) (h2 : cos
    mission_flight_path_angle ≠ 0) :
    HasDerivAt (fun t => out_normal_force t vehicle_propulsion_thrust_total vehicle_lift
      wing_incidence) (J_normal_force__vehicle_mass vehicle_mass vehicle_propulsion_thrust_total
      vehicle_lift wing_incidence) vehicle_mass ∧
    HasDerivAt (fun t => out_normal_force vehicle_mass t vehicle_lift wing_incidence)
      (J_normal_force__vehicle_propulsion_thrust_total vehicle_mass
      vehicle_propulsion_thrust_total vehicle_lift wing_incidence) vehicle_propulsion_thrust_total ∧
    HasDerivAt (fun t => out_normal_force vehicle_mass vehicle_propulsion_thrust_total t
      wing_incidence) (J_normal_force__vehicle_lift vehicle_mass vehicle_propulsion_thrust_total
      vehicle_lift wing_incidence) vehicle_lift ∧
    HasDerivAt (fun t => out_mission_velocity_rate gravity t vehicle_propulsion_thrust_total
      vehicle_lift vehicle_drag mission_flight_path_angle wing_incidence
      takeoff_rolling_friction_coefficient) (J_mission_velocity_rate__vehicle_mass gravity
      vehicle_mass vehicle_propulsion_thrust_total vehicle_lift vehicle_drag
      mission_flight_path_angle wing_incidence takeoff_rolling_friction_coefficient) vehicle_mass ∧
    HasDerivAt (fun t => out_mission_velocity_rate gravity vehicle_mass t vehicle_lift vehicle_drag
      mission_flight_path_angle wing_incidence takeoff_rolling_friction_coefficient)
      (J_mission_velocity_rate__vehicle_propulsion_thrust_total gravity vehicle_mass
      vehicle_propulsion_thrust_total vehicle_lift wing_incidence
      takeoff_rolling_friction_coefficient) vehicle_propulsion_thrust_total ∧
    HasDerivAt (fun t => out_mission_velocity_rate gravity vehicle_mass
      vehicle_propulsion_thrust_total t vehicle_drag mission_flight_path_angle wing_incidence
      takeoff_rolling_friction_coefficient) (J_mission_velocity_rate__vehicle_lift gravity
      vehicle_mass vehicle_propulsion_thrust_total vehicle_lift wing_incidence
      takeoff_rolling_friction_coefficient) vehicle_lift ∧
    HasDerivAt (fun t => out_mission_velocity_rate gravity vehicle_mass
      vehicle_propulsion_thrust_total vehicle_lift t mission_flight_path_angle wing_incidence
      takeoff_rolling_friction_coefficient) (J_mission_velocity_rate__vehicle_drag gravity
      vehicle_mass) vehicle_drag ∧
    HasDerivAt (fun t => out_mission_velocity_rate gravity vehicle_mass
      vehicle_propulsion_thrust_total vehicle_lift vehicle_drag t wing_incidence
      takeoff_rolling_friction_coefficient) (J_mission_velocity_rate__mission_flight_path_angle
      gravity mission_flight_path_angle) mission_flight_path_angle ∧
    HasDerivAt (fun t => out_mission_velocity_rate gravity vehicle_mass
      vehicle_propulsion_thrust_total vehicle_lift vehicle_drag mission_flight_path_angle
      wing_incidence t) (J_mission_velocity_rate__takeoff_rolling_friction_coefficient gravity
      vehicle_mass vehicle_propulsion_thrust_total vehicle_lift wing_incidence)
      takeoff_rolling_friction_coefficient ∧
    HasDerivAt (fun t => out_mission_altitude_rate t mission_flight_path_angle)
      (J_mission_altitude_rate__mission_velocity mission_flight_path_angle) mission_velocity ∧
    HasDerivAt (fun t => out_mission_altitude_rate mission_velocity t)
      (J_mission_altitude_rate__mission_flight_path_angle mission_velocity
      mission_flight_path_angle) mission_flight_path_angle ∧
    HasDerivAt (fun t => out_mission_distance_rate t mission_flight_path_angle)
      (J_mission_distance_rate__mission_velocity mission_flight_path_angle) mission_velocity ∧
    HasDerivAt (fun t => out_mission_distance_rate mission_velocity t)
      (J_mission_distance_rate__mission_flight_path_angle mission_velocity
      mission_flight_path_angle) mission_flight_path_angle ∧
    HasDerivAt (fun t => out_fuselage_pitch t wing_incidence)
      (J_fuselage_pitch__mission_flight_path_angle) mission_flight_path_angle ∧
    HasDerivAt (fun t => out_load_factor t vehicle_propulsion_thrust_total vehicle_lift
      mission_flight_path_angle wing_incidence) (J_load_factor__vehicle_mass vehicle_mass
      vehicle_propulsion_thrust_total vehicle_lift mission_flight_path_angle wing_incidence)
      vehicle_mass ∧
    HasDerivAt (fun t => out_load_factor vehicle_mass t vehicle_lift mission_flight_path_angle
      wing_incidence) (J_load_factor__vehicle_propulsion_thrust_total vehicle_mass
      mission_flight_path_angle wing_incidence) vehicle_propulsion_thrust_total ∧
    HasDerivAt (fun t => out_load_factor vehicle_mass vehicle_propulsion_thrust_total t
      mission_flight_path_angle wing_incidence) (J_load_factor__vehicle_lift vehicle_mass
      mission_flight_path_angle) vehicle_lift ∧
    HasDerivAt (fun t => out_load_factor vehicle_mass vehicle_propulsion_thrust_total vehicle_lift t
      wing_incidence) (J_load_factor__mission_flight_path_angle vehicle_mass
      vehicle_propulsion_thrust_total vehicle_lift mission_flight_path_angle wing_incidence)
      mission_flight_path_angle :=
  ⟨d_normal_force__vehicle_mass _ _ _ _ h0 h0, d_normal_force__vehicle_propulsion_thrust_total _ _
    _ _ h0 h0, d_normal_force__vehicle_lift _ _ _ _ h0 h0, d_mission_velocity_rate__vehicle_mass _
    _ _ _ _ _ _ _ h0 h1 h0, d_mission_velocity_rate__vehicle_propulsion_thrust_total _ _ _ _ _ _ _
    _ h0 h1 h0, d_mission_velocity_rate__vehicle_lift _ _ _ _ _ _ _ _ h0 h1 h0,
    d_mission_velocity_rate__vehicle_drag _ _ _ _ _ _ _ _ h1,
    d_mission_velocity_rate__mission_flight_path_angle _ _ _ _ _ _ _ _ h1,
    d_mission_velocity_rate__takeoff_rolling_friction_coefficient _ _ _ _ _ _ _ _ h1,
    d_mission_altitude_rate__mission_velocity _ _,
    d_mission_altitude_rate__mission_flight_path_angle _ _,
    d_mission_distance_rate__mission_velocity _ _,
    d_mission_distance_rate__mission_flight_path_angle _ _,
    d_fuselage_pitch__mission_flight_path_angle _ _, d_load_factor__vehicle_mass _ _ _ _ _ h1 h2,
    d_load_factor__vehicle_propulsion_thrust_total _ _ _ _ _ h1 h2, d_load_factor__vehicle_lift _
    _ _ _ _ h1 h2, d_load_factor__mission_flight_path_angle _ _ _ _ _ h1 h2⟩

example : ∃ gravity vehicle_mass vehicle_propulsion_thrust_total vehicle_lift vehicle_drag
      mission_velocity mission_flight_path_angle wing_incidence
      takeoff_rolling_friction_coefficient : ℝ,
      (vehicle_mass - vehicle_lift) - (vehicle_propulsion_thrust_total * (sin ((wing_incidence -
        wing_incidence) * (π / 180)))) ≠ 0 ∧
      0 < vehicle_mass ∧
      cos mission_flight_path_angle ≠ 0 :=
  ⟨0, 1, 0, 0, 0, 0, 0, 0, 0, by comp_example, by comp_example, by comp_example⟩

end Verif.Comp.MissionTwoDofOdeTakeoffEom.TakeoffEOM_groundroll_no_rotation

