import Verif.Lemmas.CompDeriv

/-! # Partial derivatives of the components of `aviary/mission/two_dof/ode/takeoff_eom.py`

One node of a vector component is modelled over the real numbers.  Each option that selects a
branch is fixed, one namespace per choice.  `out_x` is the output `x`, `J_x__y` the entry that
`compute_partials` (or `declare_partials` with `val`) assigns, `d_x__y` the proof that the entry is
the derivative.  Inputs an output does not take as argument have no influence on it. -/

set_option linter.all false

namespace Verif.Comp.MissionTwoDofOdeTakeoffEom.TakeoffEOM_no_groundroll_no_rotation
open Real

/-- aviary/mission/two_dof/ode/takeoff_eom.py:235 -/
noncomputable def thrust_along_flightpath (vehicle_propulsion_thrust_total wing_incidence vehicle_angle_of_attack : ℝ) : ℝ :=
  vehicle_propulsion_thrust_total * (cos ((vehicle_angle_of_attack - wing_incidence) * (π /
    180)))

/-- aviary/mission/two_dof/ode/takeoff_eom.py:236 -/
noncomputable def thrust_across_flightpath (vehicle_propulsion_thrust_total wing_incidence vehicle_angle_of_attack : ℝ) : ℝ :=
  vehicle_propulsion_thrust_total * (sin ((vehicle_angle_of_attack - wing_incidence) * (π /
    180)))

/-- aviary/mission/two_dof/ode/takeoff_eom.py:249 -/
noncomputable def cos_gamma (mission_flight_path_angle : ℝ) : ℝ := cos mission_flight_path_angle

/-- aviary/mission/two_dof/ode/takeoff_eom.py:250 -/
noncomputable def sin_gamma (mission_flight_path_angle : ℝ) : ℝ := sin mission_flight_path_angle

/-- aviary/mission/two_dof/ode/takeoff_eom.py:272 -/
noncomputable def load_factor (vehicle_mass vehicle_propulsion_thrust_total vehicle_lift mission_flight_path_angle wing_incidence vehicle_angle_of_attack : ℝ) : ℝ :=
  (vehicle_lift + (thrust_across_flightpath vehicle_propulsion_thrust_total wing_incidence
    vehicle_angle_of_attack)) / (vehicle_mass * (cos_gamma mission_flight_path_angle))

/-- aviary/mission/two_dof/ode/takeoff_eom.py:304 -/
noncomputable def cos_alpha (wing_incidence vehicle_angle_of_attack : ℝ) : ℝ :=
  cos ((vehicle_angle_of_attack - wing_incidence) * (π / 180))

/-- aviary/mission/two_dof/ode/takeoff_eom.py:305 -/
noncomputable def sin_alpha (wing_incidence vehicle_angle_of_attack : ℝ) : ℝ :=
  sin ((vehicle_angle_of_attack - wing_incidence) * (π / 180))

/-- aviary/mission/two_dof/ode/takeoff_eom.py:309 -/
noncomputable def thrust_along_flightpath_2 (vehicle_propulsion_thrust_total wing_incidence vehicle_angle_of_attack : ℝ) : ℝ :=
  vehicle_propulsion_thrust_total * (cos_alpha wing_incidence vehicle_angle_of_attack)

/-- aviary/mission/two_dof/ode/takeoff_eom.py:310 -/
noncomputable def thrust_across_flightpath_2 (vehicle_propulsion_thrust_total wing_incidence vehicle_angle_of_attack : ℝ) : ℝ :=
  vehicle_propulsion_thrust_total * (sin_alpha wing_incidence vehicle_angle_of_attack)

/-- aviary/mission/two_dof/ode/takeoff_eom.py:313 -/
noncomputable def dtalf_dalpha (vehicle_propulsion_thrust_total wing_incidence vehicle_angle_of_attack : ℝ) : ℝ :=
  ((-vehicle_propulsion_thrust_total) * (sin_alpha wing_incidence vehicle_angle_of_attack)) * (π
    / 180)

/-- aviary/mission/two_dof/ode/takeoff_eom.py:314 -/
noncomputable def dtalf_diwing (vehicle_propulsion_thrust_total wing_incidence vehicle_angle_of_attack : ℝ) : ℝ :=
  (vehicle_propulsion_thrust_total * (sin_alpha wing_incidence vehicle_angle_of_attack)) * (π /
    180)

/-- aviary/mission/two_dof/ode/takeoff_eom.py:317 -/
noncomputable def dtacf_dalpha (vehicle_propulsion_thrust_total wing_incidence vehicle_angle_of_attack : ℝ) : ℝ :=
  (vehicle_propulsion_thrust_total * (cos_alpha wing_incidence vehicle_angle_of_attack)) * (π /
    180)

/-- aviary/mission/two_dof/ode/takeoff_eom.py:318 -/
noncomputable def dtacf_diwing (vehicle_propulsion_thrust_total wing_incidence vehicle_angle_of_attack : ℝ) : ℝ :=
  ((-vehicle_propulsion_thrust_total) * (cos_alpha wing_incidence vehicle_angle_of_attack)) * (π
    / 180)

/-- aviary/mission/two_dof/ode/takeoff_eom.py:349 -/
noncomputable def dnf_dthrust (wing_incidence vehicle_angle_of_attack : ℝ) : ℝ :=
  (-1) * (sin_alpha wing_incidence vehicle_angle_of_attack)

/-- aviary/mission/two_dof/ode/takeoff_eom.py:352 -/
noncomputable def dnf_diwing (vehicle_propulsion_thrust_total wing_incidence vehicle_angle_of_attack : ℝ) : ℝ :=
  (-1) * (dtacf_diwing vehicle_propulsion_thrust_total wing_incidence vehicle_angle_of_attack)

/-- aviary/mission/two_dof/ode/takeoff_eom.py:428 -/
noncomputable def dnf_dalpha (vehicle_propulsion_thrust_total wing_incidence vehicle_angle_of_attack : ℝ) : ℝ :=
  (-1) * (dtacf_dalpha vehicle_propulsion_thrust_total wing_incidence vehicle_angle_of_attack)

/-- Output `normal_force` of `TakeoffEOM.compute`, aviary/mission/two_dof/ode/takeoff_eom.py:247 -/
noncomputable def out_normal_force : ℝ := 0

/-- Output `mission_velocity_rate` of `TakeoffEOM.compute`, aviary/mission/two_dof/ode/takeoff_eom.py:252 -/
noncomputable def out_mission_velocity_rate (gravity vehicle_mass vehicle_propulsion_thrust_total vehicle_drag mission_flight_path_angle wing_incidence vehicle_angle_of_attack : ℝ) : ℝ :=
  (((((thrust_along_flightpath vehicle_propulsion_thrust_total wing_incidence
    vehicle_angle_of_attack) - vehicle_drag) - (vehicle_mass * (sin_gamma
    mission_flight_path_angle))) - 0) * gravity) / vehicle_mass

/-- Output `mission_flight_path_angle_rate` of `TakeoffEOM.compute`, aviary/mission/two_dof/ode/takeoff_eom.py:261 -/
noncomputable def out_mission_flight_path_angle_rate (gravity vehicle_mass vehicle_propulsion_thrust_total vehicle_lift mission_velocity mission_flight_path_angle wing_incidence vehicle_angle_of_attack : ℝ) : ℝ :=
  ((((thrust_across_flightpath vehicle_propulsion_thrust_total wing_incidence
    vehicle_angle_of_attack) + vehicle_lift) - (vehicle_mass * (cos_gamma
    mission_flight_path_angle))) * gravity) / (mission_velocity * vehicle_mass)

/-- Output `mission_altitude_rate` of `TakeoffEOM.compute`, aviary/mission/two_dof/ode/takeoff_eom.py:267 -/
noncomputable def out_mission_altitude_rate (mission_velocity mission_flight_path_angle : ℝ) : ℝ :=
  mission_velocity * (sin_gamma mission_flight_path_angle)

/-- Output `mission_distance_rate` of `TakeoffEOM.compute`, aviary/mission/two_dof/ode/takeoff_eom.py:268 -/
noncomputable def out_mission_distance_rate (mission_velocity mission_flight_path_angle : ℝ) : ℝ :=
  mission_velocity * (cos_gamma mission_flight_path_angle)

/-- Output `fuselage_pitch` of `TakeoffEOM.compute`, aviary/mission/two_dof/ode/takeoff_eom.py:270 -/
noncomputable def out_fuselage_pitch (mission_flight_path_angle wing_incidence vehicle_angle_of_attack : ℝ) : ℝ :=
  ((mission_flight_path_angle * (1 / (π / 180))) - wing_incidence) + vehicle_angle_of_attack

/-- Output `load_factor` of `TakeoffEOM.compute`, aviary/mission/two_dof/ode/takeoff_eom.py:273 -/
noncomputable def out_load_factor (vehicle_mass vehicle_propulsion_thrust_total vehicle_lift mission_flight_path_angle wing_incidence vehicle_angle_of_attack : ℝ) : ℝ :=
  load_factor vehicle_mass vehicle_propulsion_thrust_total vehicle_lift
    mission_flight_path_angle wing_incidence vehicle_angle_of_attack

/-- Output `angle_of_attack_rate` of `TakeoffEOM.compute`, aviary/mission/two_dof/ode/takeoff_eom.py:278 -/
noncomputable def out_angle_of_attack_rate : ℝ := 0

/-- Partial of `fuselage_pitch` with respect to `mission_flight_path_angle` as set by `TakeoffEOM`, aviary/mission/two_dof/ode/takeoff_eom.py:206 -/
noncomputable def J_fuselage_pitch__mission_flight_path_angle : ℝ := 1 / (π / 180)

/-- Partial of `load_factor` with respect to `vehicle_lift` as set by `TakeoffEOM`, aviary/mission/two_dof/ode/takeoff_eom.py:320 -/
noncomputable def J_load_factor__vehicle_lift (vehicle_mass mission_flight_path_angle : ℝ) : ℝ :=
  1 / (vehicle_mass * (cos_gamma mission_flight_path_angle))

/-- Partial of `load_factor` with respect to `vehicle_mass` as set by `TakeoffEOM`, aviary/mission/two_dof/ode/takeoff_eom.py:321 -/
noncomputable def J_load_factor__vehicle_mass (vehicle_mass vehicle_propulsion_thrust_total vehicle_lift mission_flight_path_angle wing_incidence vehicle_angle_of_attack : ℝ) : ℝ :=
  (-(vehicle_lift + (thrust_across_flightpath_2 vehicle_propulsion_thrust_total wing_incidence
    vehicle_angle_of_attack))) / ((vehicle_mass ^ 2) * (cos_gamma mission_flight_path_angle))

/-- Partial of `load_factor` with respect to `mission_flight_path_angle` as set by `TakeoffEOM`, aviary/mission/two_dof/ode/takeoff_eom.py:326 -/
noncomputable def J_load_factor__mission_flight_path_angle (vehicle_mass vehicle_propulsion_thrust_total vehicle_lift mission_flight_path_angle wing_incidence vehicle_angle_of_attack : ℝ) : ℝ :=
  ((-(vehicle_lift + (thrust_across_flightpath_2 vehicle_propulsion_thrust_total wing_incidence
    vehicle_angle_of_attack))) / (vehicle_mass * ((cos_gamma mission_flight_path_angle) ^ 2))) *
    (-(sin_gamma mission_flight_path_angle))

/-- Partial of `load_factor` with respect to `vehicle_propulsion_thrust_total` as set by `TakeoffEOM`, aviary/mission/two_dof/ode/takeoff_eom.py:331 -/
noncomputable def J_load_factor__vehicle_propulsion_thrust_total (vehicle_mass mission_flight_path_angle wing_incidence vehicle_angle_of_attack : ℝ) : ℝ :=
  (sin_alpha wing_incidence vehicle_angle_of_attack) / (vehicle_mass * (cos_gamma
    mission_flight_path_angle))

/-- Partial of `mission_velocity_rate` with respect to `vehicle_propulsion_thrust_total` as set by `TakeoffEOM`, aviary/mission/two_dof/ode/takeoff_eom.py:355 -/
noncomputable def J_mission_velocity_rate__vehicle_propulsion_thrust_total (gravity vehicle_mass wing_incidence vehicle_angle_of_attack : ℝ) : ℝ :=
  (((cos_alpha wing_incidence vehicle_angle_of_attack) - (0 * (dnf_dthrust wing_incidence
    vehicle_angle_of_attack))) * gravity) / vehicle_mass

/-- Partial of `mission_velocity_rate` with respect to `vehicle_drag` as set by `TakeoffEOM`, aviary/mission/two_dof/ode/takeoff_eom.py:359 -/
noncomputable def J_mission_velocity_rate__vehicle_drag (gravity vehicle_mass : ℝ) : ℝ :=
  (-gravity) / vehicle_mass

/-- Partial of `mission_velocity_rate` with respect to `vehicle_mass` as set by `TakeoffEOM`, aviary/mission/two_dof/ode/takeoff_eom.py:360 -/
noncomputable def J_mission_velocity_rate__vehicle_mass (gravity vehicle_mass vehicle_propulsion_thrust_total vehicle_drag mission_flight_path_angle wing_incidence vehicle_angle_of_attack : ℝ) : ℝ :=
  (gravity * ((vehicle_mass * ((-(sin_gamma mission_flight_path_angle)) - 0)) -
    ((((thrust_along_flightpath_2 vehicle_propulsion_thrust_total wing_incidence
    vehicle_angle_of_attack) - vehicle_drag) - (vehicle_mass * (sin_gamma
    mission_flight_path_angle))) - 0))) / (vehicle_mass ^ 2)

/-- Partial of `mission_velocity_rate` with respect to `mission_flight_path_angle` as set by `TakeoffEOM`, aviary/mission/two_dof/ode/takeoff_eom.py:374 -/
noncomputable def J_mission_velocity_rate__mission_flight_path_angle (gravity mission_flight_path_angle : ℝ) : ℝ :=
  (-(cos_gamma mission_flight_path_angle)) * gravity

/-- Partial of `mission_velocity_rate` with respect to `vehicle_lift` as set by `TakeoffEOM`, aviary/mission/two_dof/ode/takeoff_eom.py:377 -/
noncomputable def J_mission_velocity_rate__vehicle_lift (gravity vehicle_mass : ℝ) : ℝ :=
  (gravity * 0) / vehicle_mass

/-- Partial of `mission_altitude_rate` with respect to `mission_velocity` as set by `TakeoffEOM`, aviary/mission/two_dof/ode/takeoff_eom.py:384 -/
noncomputable def J_mission_altitude_rate__mission_velocity (mission_flight_path_angle : ℝ) : ℝ :=
  sin_gamma mission_flight_path_angle

/-- Partial of `mission_altitude_rate` with respect to `mission_flight_path_angle` as set by `TakeoffEOM`, aviary/mission/two_dof/ode/takeoff_eom.py:385 -/
noncomputable def J_mission_altitude_rate__mission_flight_path_angle (mission_velocity mission_flight_path_angle : ℝ) : ℝ :=
  mission_velocity * (cos_gamma mission_flight_path_angle)

/-- Partial of `mission_flight_path_angle_rate` with respect to `vehicle_propulsion_thrust_total` as set by `TakeoffEOM`, aviary/mission/two_dof/ode/takeoff_eom.py:389 -/
noncomputable def J_mission_flight_path_angle_rate__vehicle_propulsion_thrust_total (gravity vehicle_mass mission_velocity wing_incidence vehicle_angle_of_attack : ℝ) : ℝ :=
  ((sin_alpha wing_incidence vehicle_angle_of_attack) * gravity) / (mission_velocity *
    vehicle_mass)

/-- Partial of `mission_flight_path_angle_rate` with respect to `vehicle_angle_of_attack` as set by `TakeoffEOM`, aviary/mission/two_dof/ode/takeoff_eom.py:393 -/
noncomputable def J_mission_flight_path_angle_rate__vehicle_angle_of_attack (gravity vehicle_mass vehicle_propulsion_thrust_total mission_velocity wing_incidence vehicle_angle_of_attack : ℝ) : ℝ :=
  ((dtacf_dalpha vehicle_propulsion_thrust_total wing_incidence vehicle_angle_of_attack) *
    gravity) / (mission_velocity * vehicle_mass)

/-- Partial of `mission_flight_path_angle_rate` with respect to `wing_incidence` as set by `TakeoffEOM`, aviary/mission/two_dof/ode/takeoff_eom.py:396 -/
noncomputable def J_mission_flight_path_angle_rate__wing_incidence (gravity vehicle_mass vehicle_propulsion_thrust_total mission_velocity wing_incidence vehicle_angle_of_attack : ℝ) : ℝ :=
  ((dtacf_diwing vehicle_propulsion_thrust_total wing_incidence vehicle_angle_of_attack) *
    gravity) / (mission_velocity * vehicle_mass)

/-- Partial of `mission_flight_path_angle_rate` with respect to `vehicle_lift` as set by `TakeoffEOM`, aviary/mission/two_dof/ode/takeoff_eom.py:399 -/
noncomputable def J_mission_flight_path_angle_rate__vehicle_lift (gravity vehicle_mass mission_velocity : ℝ) : ℝ :=
  gravity / (mission_velocity * vehicle_mass)

/-- Partial of `mission_flight_path_angle_rate` with respect to `vehicle_mass` as set by `TakeoffEOM`, aviary/mission/two_dof/ode/takeoff_eom.py:402 -/
noncomputable def J_mission_flight_path_angle_rate__vehicle_mass (gravity vehicle_mass vehicle_propulsion_thrust_total vehicle_lift mission_velocity wing_incidence vehicle_angle_of_attack : ℝ) : ℝ :=
  (gravity / mission_velocity) * (((-(thrust_across_flightpath_2 vehicle_propulsion_thrust_total
    wing_incidence vehicle_angle_of_attack)) / (vehicle_mass ^ 2)) - (vehicle_lift /
    (vehicle_mass ^ 2)))

/-- Partial of `mission_flight_path_angle_rate` with respect to `mission_flight_path_angle` as set by `TakeoffEOM`, aviary/mission/two_dof/ode/takeoff_eom.py:407 -/
noncomputable def J_mission_flight_path_angle_rate__mission_flight_path_angle (gravity vehicle_mass mission_velocity mission_flight_path_angle : ℝ) : ℝ :=
  ((vehicle_mass * (sin_gamma mission_flight_path_angle)) * gravity) / (mission_velocity *
    vehicle_mass)

/-- Partial of `mission_flight_path_angle_rate` with respect to `mission_velocity` as set by `TakeoffEOM`, aviary/mission/two_dof/ode/takeoff_eom.py:411 -/
noncomputable def J_mission_flight_path_angle_rate__mission_velocity (gravity vehicle_mass vehicle_propulsion_thrust_total vehicle_lift mission_velocity mission_flight_path_angle wing_incidence vehicle_angle_of_attack : ℝ) : ℝ :=
  -(((((thrust_across_flightpath_2 vehicle_propulsion_thrust_total wing_incidence
    vehicle_angle_of_attack) + vehicle_lift) - (vehicle_mass * (cos_gamma
    mission_flight_path_angle))) * gravity) / ((mission_velocity ^ 2) * vehicle_mass))

/-- Partial of `mission_velocity_rate` with respect to `wing_incidence` as set by `TakeoffEOM`, aviary/mission/two_dof/ode/takeoff_eom.py:419 -/
noncomputable def J_mission_velocity_rate__wing_incidence (gravity vehicle_mass vehicle_propulsion_thrust_total wing_incidence vehicle_angle_of_attack : ℝ) : ℝ :=
  (((dtalf_diwing vehicle_propulsion_thrust_total wing_incidence vehicle_angle_of_attack) - (0 *
    (dnf_diwing vehicle_propulsion_thrust_total wing_incidence vehicle_angle_of_attack))) *
    gravity) / vehicle_mass

/-- Partial of `fuselage_pitch` with respect to `wing_incidence` as set by `TakeoffEOM`, aviary/mission/two_dof/ode/takeoff_eom.py:424 -/
noncomputable def J_fuselage_pitch__wing_incidence : ℝ := -1

/-- Partial of `load_factor` with respect to `wing_incidence` as set by `TakeoffEOM`, aviary/mission/two_dof/ode/takeoff_eom.py:425 -/
noncomputable def J_load_factor__wing_incidence (vehicle_mass vehicle_propulsion_thrust_total mission_flight_path_angle wing_incidence vehicle_angle_of_attack : ℝ) : ℝ :=
  (dtacf_diwing vehicle_propulsion_thrust_total wing_incidence vehicle_angle_of_attack) /
    (vehicle_mass * (cos_gamma mission_flight_path_angle))

/-- Partial of `mission_velocity_rate` with respect to `vehicle_angle_of_attack` as set by `TakeoffEOM`, aviary/mission/two_dof/ode/takeoff_eom.py:431 -/
noncomputable def J_mission_velocity_rate__vehicle_angle_of_attack (gravity vehicle_mass vehicle_propulsion_thrust_total wing_incidence vehicle_angle_of_attack : ℝ) : ℝ :=
  (((dtalf_dalpha vehicle_propulsion_thrust_total wing_incidence vehicle_angle_of_attack) - (0 *
    (dnf_dalpha vehicle_propulsion_thrust_total wing_incidence vehicle_angle_of_attack))) *
    gravity) / vehicle_mass

/-- Partial of `fuselage_pitch` with respect to `vehicle_angle_of_attack` as set by `TakeoffEOM`, aviary/mission/two_dof/ode/takeoff_eom.py:436 -/
noncomputable def J_fuselage_pitch__vehicle_angle_of_attack : ℝ := 1

/-- Partial of `load_factor` with respect to `vehicle_angle_of_attack` as set by `TakeoffEOM`, aviary/mission/two_dof/ode/takeoff_eom.py:437 -/
noncomputable def J_load_factor__vehicle_angle_of_attack (vehicle_mass vehicle_propulsion_thrust_total mission_flight_path_angle wing_incidence vehicle_angle_of_attack : ℝ) : ℝ :=
  (dtacf_dalpha vehicle_propulsion_thrust_total wing_incidence vehicle_angle_of_attack) /
    (vehicle_mass * (cos_gamma mission_flight_path_angle))

/-- Partial of `mission_distance_rate` with respect to `mission_velocity` as set by `TakeoffEOM`, aviary/mission/two_dof/ode/takeoff_eom.py:439 -/
noncomputable def J_mission_distance_rate__mission_velocity (mission_flight_path_angle : ℝ) : ℝ :=
  cos_gamma mission_flight_path_angle

/-- Partial of `mission_distance_rate` with respect to `mission_flight_path_angle` as set by `TakeoffEOM`, aviary/mission/two_dof/ode/takeoff_eom.py:440 -/
noncomputable def J_mission_distance_rate__mission_flight_path_angle (mission_velocity mission_flight_path_angle : ℝ) : ℝ :=
  (-mission_velocity) * (sin_gamma mission_flight_path_angle)

theorem d_mission_velocity_rate__vehicle_mass (gravity vehicle_mass
    vehicle_propulsion_thrust_total vehicle_drag mission_flight_path_angle wing_incidence
    vehicle_angle_of_attack : ℝ) (h0 : 0 < vehicle_mass) :
    HasDerivAt (fun t => out_mission_velocity_rate gravity t vehicle_propulsion_thrust_total vehicle_drag mission_flight_path_angle wing_incidence vehicle_angle_of_attack) (J_mission_velocity_rate__vehicle_mass gravity vehicle_mass vehicle_propulsion_thrust_total vehicle_drag mission_flight_path_angle wing_incidence vehicle_angle_of_attack) vehicle_mass := by
  simp only [out_mission_velocity_rate, J_mission_velocity_rate__vehicle_mass, thrust_along_flightpath_2, cos_alpha, sin_gamma, thrust_along_flightpath]
  (apply hasDerivAt_of_eq; on_goal 1 => (repeat' comp_step))
  all_goals try comp_side
  all_goals try simp only [mul_zero, zero_mul, add_zero, zero_add, sub_zero, zero_sub, mul_one, one_mul]
  all_goals try push_cast
  all_goals comp_eq

theorem d_mission_velocity_rate__vehicle_propulsion_thrust_total (gravity vehicle_mass
    vehicle_propulsion_thrust_total vehicle_drag mission_flight_path_angle wing_incidence
    vehicle_angle_of_attack : ℝ) (h0 : 0 < vehicle_mass) :
    HasDerivAt (fun t => out_mission_velocity_rate gravity vehicle_mass t vehicle_drag mission_flight_path_angle wing_incidence vehicle_angle_of_attack) (J_mission_velocity_rate__vehicle_propulsion_thrust_total gravity vehicle_mass wing_incidence vehicle_angle_of_attack) vehicle_propulsion_thrust_total := by
  simp only [out_mission_velocity_rate, J_mission_velocity_rate__vehicle_propulsion_thrust_total, dnf_dthrust, sin_alpha, cos_alpha, sin_gamma, thrust_along_flightpath]
  (apply hasDerivAt_of_eq; on_goal 1 => (repeat' comp_step))
  all_goals try comp_side
  all_goals try simp only [mul_zero, zero_mul, add_zero, zero_add, sub_zero, zero_sub, mul_one, one_mul]
  all_goals try push_cast
  all_goals comp_eq

theorem d_mission_velocity_rate__vehicle_lift (gravity vehicle_mass
    vehicle_propulsion_thrust_total vehicle_lift vehicle_drag mission_flight_path_angle
    wing_incidence vehicle_angle_of_attack : ℝ) (h0 : 0 < vehicle_mass) :
    HasDerivAt (fun t => out_mission_velocity_rate gravity vehicle_mass vehicle_propulsion_thrust_total vehicle_drag mission_flight_path_angle wing_incidence vehicle_angle_of_attack) (J_mission_velocity_rate__vehicle_lift gravity vehicle_mass) vehicle_lift := by
  simp only [out_mission_velocity_rate, J_mission_velocity_rate__vehicle_lift, sin_gamma, thrust_along_flightpath]
  (apply hasDerivAt_of_eq; on_goal 1 => (repeat' comp_step))
  all_goals try comp_side
  all_goals try simp only [mul_zero, zero_mul, add_zero, zero_add, sub_zero, zero_sub, mul_one, one_mul]
  all_goals try push_cast
  all_goals comp_eq

theorem d_mission_velocity_rate__vehicle_drag (gravity vehicle_mass
    vehicle_propulsion_thrust_total vehicle_drag mission_flight_path_angle wing_incidence
    vehicle_angle_of_attack : ℝ) (h0 : 0 < vehicle_mass) :
    HasDerivAt (fun t => out_mission_velocity_rate gravity vehicle_mass vehicle_propulsion_thrust_total t mission_flight_path_angle wing_incidence vehicle_angle_of_attack) (J_mission_velocity_rate__vehicle_drag gravity vehicle_mass) vehicle_drag := by
  simp only [out_mission_velocity_rate, J_mission_velocity_rate__vehicle_drag, sin_gamma, thrust_along_flightpath]
  (apply hasDerivAt_of_eq; on_goal 1 => (repeat' comp_step))
  all_goals try comp_side
  all_goals try simp only [mul_zero, zero_mul, add_zero, zero_add, sub_zero, zero_sub, mul_one, one_mul]
  all_goals try push_cast
  all_goals comp_eq

theorem d_mission_velocity_rate__mission_flight_path_angle (gravity vehicle_mass
    vehicle_propulsion_thrust_total vehicle_drag mission_flight_path_angle wing_incidence
    vehicle_angle_of_attack : ℝ) (h0 : 0 < vehicle_mass) :
    HasDerivAt (fun t => out_mission_velocity_rate gravity vehicle_mass vehicle_propulsion_thrust_total vehicle_drag t wing_incidence vehicle_angle_of_attack) (J_mission_velocity_rate__mission_flight_path_angle gravity mission_flight_path_angle) mission_flight_path_angle := by
  simp only [out_mission_velocity_rate, J_mission_velocity_rate__mission_flight_path_angle, cos_gamma, sin_gamma, thrust_along_flightpath]
  (apply hasDerivAt_of_eq; on_goal 1 => (repeat' comp_step))
  all_goals try comp_side
  all_goals try simp only [mul_zero, zero_mul, add_zero, zero_add, sub_zero, zero_sub, mul_one, one_mul]
  all_goals try push_cast
  all_goals comp_eq

theorem d_mission_velocity_rate__wing_incidence (gravity vehicle_mass
    vehicle_propulsion_thrust_total vehicle_drag mission_flight_path_angle wing_incidence
    vehicle_angle_of_attack : ℝ) (h0 : 0 < vehicle_mass) :
    HasDerivAt (fun t => out_mission_velocity_rate gravity vehicle_mass vehicle_propulsion_thrust_total vehicle_drag mission_flight_path_angle t vehicle_angle_of_attack) (J_mission_velocity_rate__wing_incidence gravity vehicle_mass vehicle_propulsion_thrust_total wing_incidence vehicle_angle_of_attack) wing_incidence := by
  simp only [out_mission_velocity_rate, J_mission_velocity_rate__wing_incidence, dnf_diwing, dtacf_diwing, cos_alpha, dtalf_diwing, sin_alpha, sin_gamma, thrust_along_flightpath]
  (apply hasDerivAt_of_eq; on_goal 1 => (repeat' comp_step))
  all_goals try comp_side
  all_goals try simp only [mul_zero, zero_mul, add_zero, zero_add, sub_zero, zero_sub, mul_one, one_mul]
  all_goals try push_cast
  all_goals comp_eq

theorem d_mission_velocity_rate__vehicle_angle_of_attack (gravity vehicle_mass
    vehicle_propulsion_thrust_total vehicle_drag mission_flight_path_angle wing_incidence
    vehicle_angle_of_attack : ℝ) (h0 : 0 < vehicle_mass) :
    HasDerivAt (fun t => out_mission_velocity_rate gravity vehicle_mass vehicle_propulsion_thrust_total vehicle_drag mission_flight_path_angle wing_incidence t) (J_mission_velocity_rate__vehicle_angle_of_attack gravity vehicle_mass vehicle_propulsion_thrust_total wing_incidence vehicle_angle_of_attack) vehicle_angle_of_attack := by
  simp only [out_mission_velocity_rate, J_mission_velocity_rate__vehicle_angle_of_attack, dnf_dalpha, dtacf_dalpha, cos_alpha, dtalf_dalpha, sin_alpha, sin_gamma, thrust_along_flightpath]
  (apply hasDerivAt_of_eq; on_goal 1 => (repeat' comp_step))
  all_goals try comp_side
  all_goals try simp only [mul_zero, zero_mul, add_zero, zero_add, sub_zero, zero_sub, mul_one, one_mul]
  all_goals try push_cast
  all_goals comp_eq

theorem d_mission_flight_path_angle_rate__vehicle_mass (gravity vehicle_mass
    vehicle_propulsion_thrust_total vehicle_lift mission_velocity mission_flight_path_angle
    wing_incidence vehicle_angle_of_attack : ℝ) (h0 : 0 < mission_velocity) (h1 : 0 <
    vehicle_mass) :
    HasDerivAt (fun t => out_mission_flight_path_angle_rate gravity t vehicle_propulsion_thrust_total vehicle_lift mission_velocity mission_flight_path_angle wing_incidence vehicle_angle_of_attack) (J_mission_flight_path_angle_rate__vehicle_mass gravity vehicle_mass vehicle_propulsion_thrust_total vehicle_lift mission_velocity wing_incidence vehicle_angle_of_attack) vehicle_mass := by
  simp only [out_mission_flight_path_angle_rate, J_mission_flight_path_angle_rate__vehicle_mass, thrust_across_flightpath_2, sin_alpha, cos_gamma, thrust_across_flightpath]
  (apply hasDerivAt_of_eq; on_goal 1 => (repeat' comp_step))
  all_goals try comp_side
  all_goals try simp only [mul_zero, zero_mul, add_zero, zero_add, sub_zero, zero_sub, mul_one, one_mul]
  all_goals try push_cast
  all_goals comp_eq

theorem d_mission_flight_path_angle_rate__vehicle_propulsion_thrust_total (gravity vehicle_mass
    vehicle_propulsion_thrust_total vehicle_lift mission_velocity mission_flight_path_angle
    wing_incidence vehicle_angle_of_attack : ℝ) (h0 : 0 < mission_velocity) (h1 : 0 <
    vehicle_mass) :
    HasDerivAt (fun t => out_mission_flight_path_angle_rate gravity vehicle_mass t vehicle_lift mission_velocity mission_flight_path_angle wing_incidence vehicle_angle_of_attack) (J_mission_flight_path_angle_rate__vehicle_propulsion_thrust_total gravity vehicle_mass mission_velocity wing_incidence vehicle_angle_of_attack) vehicle_propulsion_thrust_total := by
  simp only [out_mission_flight_path_angle_rate, J_mission_flight_path_angle_rate__vehicle_propulsion_thrust_total, sin_alpha, cos_gamma, thrust_across_flightpath]
  (apply hasDerivAt_of_eq; on_goal 1 => (repeat' comp_step))
  all_goals try comp_side
  all_goals try simp only [mul_zero, zero_mul, add_zero, zero_add, sub_zero, zero_sub, mul_one, one_mul]
  all_goals try push_cast
  all_goals comp_eq

theorem d_mission_flight_path_angle_rate__vehicle_lift (gravity vehicle_mass
    vehicle_propulsion_thrust_total vehicle_lift mission_velocity mission_flight_path_angle
    wing_incidence vehicle_angle_of_attack : ℝ) (h0 : 0 < mission_velocity) (h1 : 0 <
    vehicle_mass) :
    HasDerivAt (fun t => out_mission_flight_path_angle_rate gravity vehicle_mass vehicle_propulsion_thrust_total t mission_velocity mission_flight_path_angle wing_incidence vehicle_angle_of_attack) (J_mission_flight_path_angle_rate__vehicle_lift gravity vehicle_mass mission_velocity) vehicle_lift := by
  simp only [out_mission_flight_path_angle_rate, J_mission_flight_path_angle_rate__vehicle_lift, cos_gamma, thrust_across_flightpath]
  (apply hasDerivAt_of_eq; on_goal 1 => (repeat' comp_step))
  all_goals try comp_side
  all_goals try simp only [mul_zero, zero_mul, add_zero, zero_add, sub_zero, zero_sub, mul_one, one_mul]
  all_goals try push_cast
  all_goals comp_eq

theorem d_mission_flight_path_angle_rate__mission_velocity (gravity vehicle_mass
    vehicle_propulsion_thrust_total vehicle_lift mission_velocity mission_flight_path_angle
    wing_incidence vehicle_angle_of_attack : ℝ) (h0 : 0 < mission_velocity) (h1 : 0 <
    vehicle_mass) :
    HasDerivAt (fun t => out_mission_flight_path_angle_rate gravity vehicle_mass vehicle_propulsion_thrust_total vehicle_lift t mission_flight_path_angle wing_incidence vehicle_angle_of_attack) (J_mission_flight_path_angle_rate__mission_velocity gravity vehicle_mass vehicle_propulsion_thrust_total vehicle_lift mission_velocity mission_flight_path_angle wing_incidence vehicle_angle_of_attack) mission_velocity := by
  simp only [out_mission_flight_path_angle_rate, J_mission_flight_path_angle_rate__mission_velocity, thrust_across_flightpath_2, sin_alpha, cos_gamma, thrust_across_flightpath]
  (apply hasDerivAt_of_eq; on_goal 1 => (repeat' comp_step))
  all_goals try comp_side
  all_goals try simp only [mul_zero, zero_mul, add_zero, zero_add, sub_zero, zero_sub, mul_one, one_mul]
  all_goals try push_cast
  all_goals comp_eq

theorem d_mission_flight_path_angle_rate__mission_flight_path_angle (gravity vehicle_mass
    vehicle_propulsion_thrust_total vehicle_lift mission_velocity mission_flight_path_angle
    wing_incidence vehicle_angle_of_attack : ℝ) (h0 : 0 < mission_velocity) (h1 : 0 <
    vehicle_mass) :
    HasDerivAt (fun t => out_mission_flight_path_angle_rate gravity vehicle_mass vehicle_propulsion_thrust_total vehicle_lift mission_velocity t wing_incidence vehicle_angle_of_attack) (J_mission_flight_path_angle_rate__mission_flight_path_angle gravity vehicle_mass mission_velocity mission_flight_path_angle) mission_flight_path_angle := by
  simp only [out_mission_flight_path_angle_rate, J_mission_flight_path_angle_rate__mission_flight_path_angle, sin_gamma, cos_gamma, thrust_across_flightpath]
  (apply hasDerivAt_of_eq; on_goal 1 => (repeat' comp_step))
  all_goals try comp_side
  all_goals try simp only [mul_zero, zero_mul, add_zero, zero_add, sub_zero, zero_sub, mul_one, one_mul]
  all_goals try push_cast
  all_goals comp_eq

theorem d_mission_flight_path_angle_rate__wing_incidence (gravity vehicle_mass
    vehicle_propulsion_thrust_total vehicle_lift mission_velocity mission_flight_path_angle
    wing_incidence vehicle_angle_of_attack : ℝ) (h0 : 0 < mission_velocity) (h1 : 0 <
    vehicle_mass) :
    HasDerivAt (fun t => out_mission_flight_path_angle_rate gravity vehicle_mass vehicle_propulsion_thrust_total vehicle_lift mission_velocity mission_flight_path_angle t vehicle_angle_of_attack) (J_mission_flight_path_angle_rate__wing_incidence gravity vehicle_mass vehicle_propulsion_thrust_total mission_velocity wing_incidence vehicle_angle_of_attack) wing_incidence := by
  simp only [out_mission_flight_path_angle_rate, J_mission_flight_path_angle_rate__wing_incidence, dtacf_diwing, cos_alpha, cos_gamma, thrust_across_flightpath]
  (apply hasDerivAt_of_eq; on_goal 1 => (repeat' comp_step))
  all_goals try comp_side
  all_goals try simp only [mul_zero, zero_mul, add_zero, zero_add, sub_zero, zero_sub, mul_one, one_mul]
  all_goals try push_cast
  all_goals comp_eq

theorem d_mission_flight_path_angle_rate__vehicle_angle_of_attack (gravity vehicle_mass
    vehicle_propulsion_thrust_total vehicle_lift mission_velocity mission_flight_path_angle
    wing_incidence vehicle_angle_of_attack : ℝ) (h0 : 0 < mission_velocity) (h1 : 0 <
    vehicle_mass) :
    HasDerivAt (fun t => out_mission_flight_path_angle_rate gravity vehicle_mass vehicle_propulsion_thrust_total vehicle_lift mission_velocity mission_flight_path_angle wing_incidence t) (J_mission_flight_path_angle_rate__vehicle_angle_of_attack gravity vehicle_mass vehicle_propulsion_thrust_total mission_velocity wing_incidence vehicle_angle_of_attack) vehicle_angle_of_attack := by
  simp only [out_mission_flight_path_angle_rate, J_mission_flight_path_angle_rate__vehicle_angle_of_attack, dtacf_dalpha, cos_alpha, cos_gamma, thrust_across_flightpath]
  (apply hasDerivAt_of_eq; on_goal 1 => (repeat' comp_step))
  all_goals try comp_side
  all_goals try simp only [mul_zero, zero_mul, add_zero, zero_add, sub_zero, zero_sub, mul_one, one_mul]
  all_goals try push_cast
  all_goals comp_eq

theorem d_mission_altitude_rate__mission_velocity (mission_velocity mission_flight_path_angle : ℝ)
    :
    HasDerivAt (fun t => out_mission_altitude_rate t mission_flight_path_angle) (J_mission_altitude_rate__mission_velocity mission_flight_path_angle) mission_velocity := by
  simp only [out_mission_altitude_rate, J_mission_altitude_rate__mission_velocity, sin_gamma]
  (apply hasDerivAt_of_eq; on_goal 1 => (repeat' comp_step))
  all_goals try comp_side
  all_goals try simp only [mul_zero, zero_mul, add_zero, zero_add, sub_zero, zero_sub, mul_one, one_mul]
  all_goals try push_cast
  all_goals comp_eq

theorem d_mission_altitude_rate__mission_flight_path_angle (mission_velocity
    mission_flight_path_angle : ℝ)  :
    HasDerivAt (fun t => out_mission_altitude_rate mission_velocity t) (J_mission_altitude_rate__mission_flight_path_angle mission_velocity mission_flight_path_angle) mission_flight_path_angle := by
  simp only [out_mission_altitude_rate, J_mission_altitude_rate__mission_flight_path_angle, cos_gamma, sin_gamma]
  (apply hasDerivAt_of_eq; on_goal 1 => (repeat' comp_step))
  all_goals try comp_side
  all_goals try simp only [mul_zero, zero_mul, add_zero, zero_add, sub_zero, zero_sub, mul_one, one_mul]
  all_goals try push_cast
  all_goals comp_eq

theorem d_mission_distance_rate__mission_velocity (mission_velocity mission_flight_path_angle : ℝ)
    :
    HasDerivAt (fun t => out_mission_distance_rate t mission_flight_path_angle) (J_mission_distance_rate__mission_velocity mission_flight_path_angle) mission_velocity := by
  simp only [out_mission_distance_rate, J_mission_distance_rate__mission_velocity, cos_gamma]
  (apply hasDerivAt_of_eq; on_goal 1 => (repeat' comp_step))
  all_goals try comp_side
  all_goals try simp only [mul_zero, zero_mul, add_zero, zero_add, sub_zero, zero_sub, mul_one, one_mul]
  all_goals try push_cast
  all_goals comp_eq

theorem d_mission_distance_rate__mission_flight_path_angle (mission_velocity
    mission_flight_path_angle : ℝ)  :
    HasDerivAt (fun t => out_mission_distance_rate mission_velocity t) (J_mission_distance_rate__mission_flight_path_angle mission_velocity mission_flight_path_angle) mission_flight_path_angle := by
  simp only [out_mission_distance_rate, J_mission_distance_rate__mission_flight_path_angle, sin_gamma, cos_gamma]
  (apply hasDerivAt_of_eq; on_goal 1 => (repeat' comp_step))
  all_goals try comp_side
  all_goals try simp only [mul_zero, zero_mul, add_zero, zero_add, sub_zero, zero_sub, mul_one, one_mul]
  all_goals try push_cast
  all_goals comp_eq

theorem d_fuselage_pitch__mission_flight_path_angle (mission_flight_path_angle wing_incidence
    vehicle_angle_of_attack : ℝ)  :
    HasDerivAt (fun t => out_fuselage_pitch t wing_incidence vehicle_angle_of_attack) (J_fuselage_pitch__mission_flight_path_angle) mission_flight_path_angle := by
  simp only [out_fuselage_pitch, J_fuselage_pitch__mission_flight_path_angle]
  (apply hasDerivAt_of_eq; on_goal 1 => (repeat' comp_step))
  all_goals try comp_side
  all_goals try simp only [mul_zero, zero_mul, add_zero, zero_add, sub_zero, zero_sub, mul_one, one_mul]
  all_goals try push_cast
  all_goals comp_eq

theorem d_fuselage_pitch__wing_incidence (mission_flight_path_angle wing_incidence
    vehicle_angle_of_attack : ℝ)  :
    HasDerivAt (fun t => out_fuselage_pitch mission_flight_path_angle t vehicle_angle_of_attack) (J_fuselage_pitch__wing_incidence) wing_incidence := by
  simp only [out_fuselage_pitch, J_fuselage_pitch__wing_incidence]
  (apply hasDerivAt_of_eq; on_goal 1 => (repeat' comp_step))
  all_goals try comp_side
  all_goals try simp only [mul_zero, zero_mul, add_zero, zero_add, sub_zero, zero_sub, mul_one, one_mul]
  all_goals try push_cast
  all_goals comp_eq

theorem d_fuselage_pitch__vehicle_angle_of_attack (mission_flight_path_angle wing_incidence
    vehicle_angle_of_attack : ℝ)  :
    HasDerivAt (fun t => out_fuselage_pitch mission_flight_path_angle wing_incidence t) (J_fuselage_pitch__vehicle_angle_of_attack) vehicle_angle_of_attack := by
  simp only [out_fuselage_pitch, J_fuselage_pitch__vehicle_angle_of_attack]
  (apply hasDerivAt_of_eq; on_goal 1 => (repeat' comp_step))
  all_goals try comp_side
  all_goals try simp only [mul_zero, zero_mul, add_zero, zero_add, sub_zero, zero_sub, mul_one, one_mul]
  all_goals try push_cast
  all_goals comp_eq

theorem d_load_factor__vehicle_mass (vehicle_mass vehicle_propulsion_thrust_total vehicle_lift
    mission_flight_path_angle wing_incidence vehicle_angle_of_attack : ℝ) (h0 : 0 < vehicle_mass)
    (h1 : cos mission_flight_path_angle ≠ 0) :
    HasDerivAt (fun t => out_load_factor t vehicle_propulsion_thrust_total vehicle_lift mission_flight_path_angle wing_incidence vehicle_angle_of_attack) (J_load_factor__vehicle_mass vehicle_mass vehicle_propulsion_thrust_total vehicle_lift mission_flight_path_angle wing_incidence vehicle_angle_of_attack) vehicle_mass := by
  simp only [out_load_factor, J_load_factor__vehicle_mass, thrust_across_flightpath_2, sin_alpha, load_factor, cos_gamma, thrust_across_flightpath]
  (apply hasDerivAt_of_eq; on_goal 1 => (repeat' comp_step))
  all_goals try comp_side
  all_goals try simp only [mul_zero, zero_mul, add_zero, zero_add, sub_zero, zero_sub, mul_one, one_mul]
  all_goals try push_cast
  all_goals comp_eq

theorem d_load_factor__vehicle_propulsion_thrust_total (vehicle_mass
    vehicle_propulsion_thrust_total vehicle_lift mission_flight_path_angle wing_incidence
    vehicle_angle_of_attack : ℝ) (h0 : 0 < vehicle_mass) (h1 : cos mission_flight_path_angle ≠ 0)
    :
    HasDerivAt (fun t => out_load_factor vehicle_mass t vehicle_lift mission_flight_path_angle wing_incidence vehicle_angle_of_attack) (J_load_factor__vehicle_propulsion_thrust_total vehicle_mass mission_flight_path_angle wing_incidence vehicle_angle_of_attack) vehicle_propulsion_thrust_total := by
  simp only [out_load_factor, J_load_factor__vehicle_propulsion_thrust_total, sin_alpha, load_factor, cos_gamma, thrust_across_flightpath]
  (apply hasDerivAt_of_eq; on_goal 1 => (repeat' comp_step))
  all_goals try comp_side
  all_goals try simp only [mul_zero, zero_mul, add_zero, zero_add, sub_zero, zero_sub, mul_one, one_mul]
  all_goals try push_cast
  all_goals comp_eq

theorem d_load_factor__vehicle_lift (vehicle_mass vehicle_propulsion_thrust_total vehicle_lift
    mission_flight_path_angle wing_incidence vehicle_angle_of_attack : ℝ) (h0 : 0 < vehicle_mass)
    (h1 : cos mission_flight_path_angle ≠ 0) :
    HasDerivAt (fun t => out_load_factor vehicle_mass vehicle_propulsion_thrust_total t mission_flight_path_angle wing_incidence vehicle_angle_of_attack) (J_load_factor__vehicle_lift vehicle_mass mission_flight_path_angle) vehicle_lift := by
  simp only [out_load_factor, J_load_factor__vehicle_lift, load_factor, cos_gamma, thrust_across_flightpath]
  (apply hasDerivAt_of_eq; on_goal 1 => (repeat' comp_step))
  all_goals try comp_side
  all_goals try simp only [mul_zero, zero_mul, add_zero, zero_add, sub_zero, zero_sub, mul_one, one_mul]
  all_goals try push_cast
  all_goals comp_eq

theorem d_load_factor__mission_flight_path_angle (vehicle_mass vehicle_propulsion_thrust_total
    vehicle_lift mission_flight_path_angle wing_incidence vehicle_angle_of_attack : ℝ) (h0 : 0 <
    vehicle_mass) (h1 : cos mission_flight_path_angle ≠ 0) :
    HasDerivAt (fun t => out_load_factor vehicle_mass vehicle_propulsion_thrust_total vehicle_lift t wing_incidence vehicle_angle_of_attack) (J_load_factor__mission_flight_path_angle vehicle_mass vehicle_propulsion_thrust_total vehicle_lift mission_flight_path_angle wing_incidence vehicle_angle_of_attack) mission_flight_path_angle := by
  simp only [out_load_factor, J_load_factor__mission_flight_path_angle, sin_gamma, thrust_across_flightpath_2, sin_alpha, load_factor, cos_gamma, thrust_across_flightpath]
  (apply hasDerivAt_of_eq; on_goal 1 => (repeat' comp_step))
  all_goals try comp_side
  all_goals try simp only [mul_zero, zero_mul, add_zero, zero_add, sub_zero, zero_sub, mul_one, one_mul]
  all_goals try push_cast
  all_goals comp_eq

theorem d_load_factor__wing_incidence (vehicle_mass vehicle_propulsion_thrust_total vehicle_lift
    mission_flight_path_angle wing_incidence vehicle_angle_of_attack : ℝ) (h0 : 0 < vehicle_mass)
    (h1 : cos mission_flight_path_angle ≠ 0) :
    HasDerivAt (fun t => out_load_factor vehicle_mass vehicle_propulsion_thrust_total vehicle_lift mission_flight_path_angle t vehicle_angle_of_attack) (J_load_factor__wing_incidence vehicle_mass vehicle_propulsion_thrust_total mission_flight_path_angle wing_incidence vehicle_angle_of_attack) wing_incidence := by
  simp only [out_load_factor, J_load_factor__wing_incidence, dtacf_diwing, cos_alpha, load_factor, cos_gamma, thrust_across_flightpath]
  (apply hasDerivAt_of_eq; on_goal 1 => (repeat' comp_step))
  all_goals try comp_side
  all_goals try simp only [mul_zero, zero_mul, add_zero, zero_add, sub_zero, zero_sub, mul_one, one_mul]
  all_goals try push_cast
  all_goals comp_eq

theorem d_load_factor__vehicle_angle_of_attack (vehicle_mass vehicle_propulsion_thrust_total
    vehicle_lift mission_flight_path_angle wing_incidence vehicle_angle_of_attack : ℝ) (h0 : 0 <
    vehicle_mass) (h1 : cos mission_flight_path_angle ≠ 0) :
    HasDerivAt (fun t => out_load_factor vehicle_mass vehicle_propulsion_thrust_total vehicle_lift mission_flight_path_angle wing_incidence t) (J_load_factor__vehicle_angle_of_attack vehicle_mass vehicle_propulsion_thrust_total mission_flight_path_angle wing_incidence vehicle_angle_of_attack) vehicle_angle_of_attack := by
  simp only [out_load_factor, J_load_factor__vehicle_angle_of_attack, dtacf_dalpha, cos_alpha, load_factor, cos_gamma, thrust_across_flightpath]
  (apply hasDerivAt_of_eq; on_goal 1 => (repeat' comp_step))
  all_goals try comp_side
  all_goals try simp only [mul_zero, zero_mul, add_zero, zero_add, sub_zero, zero_sub, mul_one, one_mul]
  all_goals try push_cast
  all_goals comp_eq

/-- Every partial derivative set by `TakeoffEOM` is the derivative of its output. -/
theorem partials (gravity vehicle_mass vehicle_propulsion_thrust_total vehicle_lift vehicle_drag
    mission_velocity mission_flight_path_angle wing_incidence vehicle_angle_of_attack : ℝ) (h0 : 0
    < vehicle_mass) (h1 : 0 < mission_velocity) (h2 : cos mission_flight_path_angle ≠ 0) :
    HasDerivAt (fun t => out_mission_velocity_rate gravity t vehicle_propulsion_thrust_total
      vehicle_drag mission_flight_path_angle wing_incidence vehicle_angle_of_attack)
      (J_mission_velocity_rate__vehicle_mass gravity vehicle_mass vehicle_propulsion_thrust_total
      vehicle_drag mission_flight_path_angle wing_incidence vehicle_angle_of_attack) vehicle_mass ∧
    HasDerivAt (fun t => out_mission_velocity_rate gravity vehicle_mass t vehicle_drag
      mission_flight_path_angle wing_incidence vehicle_angle_of_attack)
      (J_mission_velocity_rate__vehicle_propulsion_thrust_total gravity vehicle_mass
      wing_incidence vehicle_angle_of_attack) vehicle_propulsion_thrust_total ∧
    HasDerivAt (fun t => out_mission_velocity_rate gravity vehicle_mass
      vehicle_propulsion_thrust_total vehicle_drag mission_flight_path_angle wing_incidence
      vehicle_angle_of_attack) (J_mission_velocity_rate__vehicle_lift gravity vehicle_mass)
      vehicle_lift ∧
    HasDerivAt (fun t => out_mission_velocity_rate gravity vehicle_mass
      vehicle_propulsion_thrust_total t mission_flight_path_angle wing_incidence
      vehicle_angle_of_attack) (J_mission_velocity_rate__vehicle_drag gravity vehicle_mass)
      vehicle_drag ∧
    HasDerivAt (fun t => out_mission_velocity_rate gravity vehicle_mass
      vehicle_propulsion_thrust_total vehicle_drag t wing_incidence vehicle_angle_of_attack)
      (J_mission_velocity_rate__mission_flight_path_angle gravity mission_flight_path_angle)
      mission_flight_path_angle ∧
    HasDerivAt (fun t => out_mission_velocity_rate gravity vehicle_mass
      vehicle_propulsion_thrust_total vehicle_drag mission_flight_path_angle t
      vehicle_angle_of_attack) (J_mission_velocity_rate__wing_incidence gravity vehicle_mass
      vehicle_propulsion_thrust_total wing_incidence vehicle_angle_of_attack) wing_incidence ∧
    HasDerivAt (fun t => out_mission_velocity_rate gravity vehicle_mass
      vehicle_propulsion_thrust_total vehicle_drag mission_flight_path_angle wing_incidence t)
      (J_mission_velocity_rate__vehicle_angle_of_attack gravity vehicle_mass
      vehicle_propulsion_thrust_total wing_incidence vehicle_angle_of_attack)
      vehicle_angle_of_attack ∧
    HasDerivAt (fun t => out_mission_flight_path_angle_rate gravity t vehicle_propulsion_thrust_total
      vehicle_lift mission_velocity mission_flight_path_angle wing_incidence
      vehicle_angle_of_attack) (J_mission_flight_path_angle_rate__vehicle_mass gravity
      vehicle_mass vehicle_propulsion_thrust_total vehicle_lift mission_velocity wing_incidence
      vehicle_angle_of_attack) vehicle_mass ∧
    HasDerivAt (fun t => out_mission_flight_path_angle_rate gravity vehicle_mass t vehicle_lift
      mission_velocity mission_flight_path_angle wing_incidence vehicle_angle_of_attack)
      (J_mission_flight_path_angle_rate__vehicle_propulsion_thrust_total gravity vehicle_mass
      mission_velocity wing_incidence vehicle_angle_of_attack) vehicle_propulsion_thrust_total ∧
    HasDerivAt (fun t => out_mission_flight_path_angle_rate gravity vehicle_mass
      vehicle_propulsion_thrust_total t mission_velocity mission_flight_path_angle wing_incidence
      vehicle_angle_of_attack) (J_mission_flight_path_angle_rate__vehicle_lift gravity
      vehicle_mass mission_velocity) vehicle_lift ∧
    HasDerivAt (fun t => out_mission_flight_path_angle_rate gravity vehicle_mass
      vehicle_propulsion_thrust_total vehicle_lift t mission_flight_path_angle wing_incidence
      vehicle_angle_of_attack) (J_mission_flight_path_angle_rate__mission_velocity gravity
      vehicle_mass vehicle_propulsion_thrust_total vehicle_lift mission_velocity
      mission_flight_path_angle wing_incidence vehicle_angle_of_attack) mission_velocity ∧
    HasDerivAt (fun t => out_mission_flight_path_angle_rate gravity vehicle_mass
      vehicle_propulsion_thrust_total vehicle_lift mission_velocity t wing_incidence
      vehicle_angle_of_attack) (J_mission_flight_path_angle_rate__mission_flight_path_angle
      gravity vehicle_mass mission_velocity mission_flight_path_angle) mission_flight_path_angle ∧
    HasDerivAt (fun t => out_mission_flight_path_angle_rate gravity vehicle_mass
      vehicle_propulsion_thrust_total vehicle_lift mission_velocity mission_flight_path_angle t
      vehicle_angle_of_attack) (J_mission_flight_path_angle_rate__wing_incidence gravity
      vehicle_mass vehicle_propulsion_thrust_total mission_velocity wing_incidence
      vehicle_angle_of_attack) wing_incidence ∧
    HasDerivAt (fun t => out_mission_flight_path_angle_rate gravity vehicle_mass
      vehicle_propulsion_thrust_total vehicle_lift mission_velocity mission_flight_path_angle
      wing_incidence t) (J_mission_flight_path_angle_rate__vehicle_angle_of_attack gravity
      vehicle_mass vehicle_propulsion_thrust_total mission_velocity wing_incidence
      vehicle_angle_of_attack) vehicle_angle_of_attack ∧
    HasDerivAt (fun t => out_mission_altitude_rate t mission_flight_path_angle)
      (J_mission_altitude_rate__mission_velocity mission_flight_path_angle) mission_velocity ∧
    HasDerivAt (fun t => out_mission_altitude_rate mission_velocity t)
      (J_mission_altitude_rate__mission_flight_path_angle mission_velocity
      mission_flight_path_angle) mission_flight_path_angle ∧
    HasDerivAt (fun t => out_mission_distance_rate t mission_flight_path_angle)
      (J_mission_distance_rate__mission_velocity mission_flight_path_angle) mission_velocity ∧
    HasDerivAt (fun t => out_mission_distance_rate mission_velocity t)
      (J_mission_distance_rate__mission_flight_path_angle mission_velocity
      mission_flight_path_angle) mission_flight_path_angle ∧
    HasDerivAt (fun t => out_fuselage_pitch t wing_incidence vehicle_angle_of_attack)
      (J_fuselage_pitch__mission_flight_path_angle) mission_flight_path_angle ∧
    HasDerivAt (fun t => out_fuselage_pitch mission_flight_path_angle t vehicle_angle_of_attack)
      (J_fuselage_pitch__wing_incidence) wing_incidence ∧
    HasDerivAt (fun t => out_fuselage_pitch mission_flight_path_angle wing_incidence t)
      (J_fuselage_pitch__vehicle_angle_of_attack) vehicle_angle_of_attack ∧
    HasDerivAt (fun t => out_load_factor t vehicle_propulsion_thrust_total vehicle_lift
      mission_flight_path_angle wing_incidence vehicle_angle_of_attack)
      (J_load_factor__vehicle_mass vehicle_mass vehicle_propulsion_thrust_total vehicle_lift
      mission_flight_path_angle wing_incidence vehicle_angle_of_attack) vehicle_mass ∧
    HasDerivAt (fun t => out_load_factor vehicle_mass t vehicle_lift mission_flight_path_angle
      wing_incidence vehicle_angle_of_attack) (J_load_factor__vehicle_propulsion_thrust_total
      vehicle_mass mission_flight_path_angle wing_incidence vehicle_angle_of_attack)
      vehicle_propulsion_thrust_total ∧
    HasDerivAt (fun t => out_load_factor vehicle_mass vehicle_propulsion_thrust_total t
      mission_flight_path_angle wing_incidence vehicle_angle_of_attack)
      (J_load_factor__vehicle_lift vehicle_mass mission_flight_path_angle) vehicle_lift ∧
    HasDerivAt (fun t => out_load_factor vehicle_mass vehicle_propulsion_thrust_total vehicle_lift t
      wing_incidence vehicle_angle_of_attack) (J_load_factor__mission_flight_path_angle
      vehicle_mass vehicle_propulsion_thrust_total vehicle_lift mission_flight_path_angle
      wing_incidence vehicle_angle_of_attack) mission_flight_path_angle ∧
    HasDerivAt (fun t => out_load_factor vehicle_mass vehicle_propulsion_thrust_total vehicle_lift
      mission_flight_path_angle t vehicle_angle_of_attack) (J_load_factor__wing_incidence
      vehicle_mass vehicle_propulsion_thrust_total mission_flight_path_angle wing_incidence
      vehicle_angle_of_attack) wing_incidence ∧
    HasDerivAt (fun t => out_load_factor vehicle_mass vehicle_propulsion_thrust_total vehicle_lift
      mission_flight_path_angle wing_incidence t) (J_load_factor__vehicle_angle_of_attack
      vehicle_mass vehicle_propulsion_thrust_total mission_flight_path_angle wing_incidence
      vehicle_angle_of_attack) vehicle_angle_of_attack :=
  ⟨d_mission_velocity_rate__vehicle_mass _ _ _ _ _ _ _ h0,
    d_mission_velocity_rate__vehicle_propulsion_thrust_total _ _ _ _ _ _ _ h0,
    d_mission_velocity_rate__vehicle_lift _ _ _ _ _ _ _ _ h0,
    d_mission_velocity_rate__vehicle_drag _ _ _ _ _ _ _ h0,
    d_mission_velocity_rate__mission_flight_path_angle _ _ _ _ _ _ _ h0,
    d_mission_velocity_rate__wing_incidence _ _ _ _ _ _ _ h0,
    d_mission_velocity_rate__vehicle_angle_of_attack _ _ _ _ _ _ _ h0,
    d_mission_flight_path_angle_rate__vehicle_mass _ _ _ _ _ _ _ _ h1 h0,
    d_mission_flight_path_angle_rate__vehicle_propulsion_thrust_total _ _ _ _ _ _ _ _ h1 h0,
    d_mission_flight_path_angle_rate__vehicle_lift _ _ _ _ _ _ _ _ h1 h0,
    d_mission_flight_path_angle_rate__mission_velocity _ _ _ _ _ _ _ _ h1 h0,
    d_mission_flight_path_angle_rate__mission_flight_path_angle _ _ _ _ _ _ _ _ h1 h0,
    d_mission_flight_path_angle_rate__wing_incidence _ _ _ _ _ _ _ _ h1 h0,
    d_mission_flight_path_angle_rate__vehicle_angle_of_attack _ _ _ _ _ _ _ _ h1 h0,
    d_mission_altitude_rate__mission_velocity _ _,
    d_mission_altitude_rate__mission_flight_path_angle _ _,
    d_mission_distance_rate__mission_velocity _ _,
    d_mission_distance_rate__mission_flight_path_angle _ _,
    d_fuselage_pitch__mission_flight_path_angle _ _ _, d_fuselage_pitch__wing_incidence _ _ _,
    d_fuselage_pitch__vehicle_angle_of_attack _ _ _, d_load_factor__vehicle_mass _ _ _ _ _ _ h0
    h2, d_load_factor__vehicle_propulsion_thrust_total _ _ _ _ _ _ h0 h2,
    d_load_factor__vehicle_lift _ _ _ _ _ _ h0 h2, d_load_factor__mission_flight_path_angle _ _ _
    _ _ _ h0 h2, d_load_factor__wing_incidence _ _ _ _ _ _ h0 h2,
    d_load_factor__vehicle_angle_of_attack _ _ _ _ _ _ h0 h2⟩

example : ∃ gravity vehicle_mass vehicle_propulsion_thrust_total vehicle_lift vehicle_drag
      mission_velocity mission_flight_path_angle wing_incidence vehicle_angle_of_attack : ℝ,
      0 < vehicle_mass ∧
      0 < mission_velocity ∧
      cos mission_flight_path_angle ≠ 0 :=
  ⟨0, 1, 0, 0, 0, 1, 0, 0, 0, by comp_example, by comp_example, by comp_example⟩

end Verif.Comp.MissionTwoDofOdeTakeoffEom.TakeoffEOM_no_groundroll_no_rotation

