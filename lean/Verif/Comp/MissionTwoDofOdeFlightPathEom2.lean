import Verif.Lemmas.CompDeriv

/-! # Partial derivatives of the components of `aviary/mission/two_dof/ode/flight_path_eom.py`

One node of a vector component is modelled over the real numbers.  Each option that selects a
branch is fixed, one namespace per choice.  `out_x` is the output `x`, `J_x__y` the entry that
`compute_partials` (or `declare_partials` with `val`) assigns, `d_x__y` the proof that the entry is
the derivative.  Inputs an output does not take as argument have no influence on it. -/

set_option linter.all false

namespace Verif.Comp.MissionTwoDofOdeFlightPathEom.FlightPathEOM_no_groundroll
open Real

/-- aviary/mission/two_dof/ode/flight_path_eom.py:211 -/
noncomputable def thrust_along_flightpath (vehicle_propulsion_thrust_total wing_incidence vehicle_angle_of_attack : ℝ) : ℝ :=
  vehicle_propulsion_thrust_total * (cos (((vehicle_angle_of_attack - wing_incidence) * π) /
    180))

/-- aviary/mission/two_dof/ode/flight_path_eom.py:212 -/
noncomputable def thrust_across_flightpath (vehicle_propulsion_thrust_total wing_incidence vehicle_angle_of_attack : ℝ) : ℝ :=
  vehicle_propulsion_thrust_total * (sin (((vehicle_angle_of_attack - wing_incidence) * π) /
    180))

/-- aviary/mission/two_dof/ode/flight_path_eom.py:213 -/
noncomputable def normal_force (vehicle_mass vehicle_propulsion_thrust_total vehicle_lift wing_incidence vehicle_angle_of_attack : ℝ) : ℝ :=
  (vehicle_mass - vehicle_lift) - (thrust_across_flightpath vehicle_propulsion_thrust_total
    wing_incidence vehicle_angle_of_attack)

/-- aviary/mission/two_dof/ode/flight_path_eom.py:240 -/
noncomputable def load_factor (vehicle_mass vehicle_propulsion_thrust_total vehicle_lift mission_flight_path_angle wing_incidence vehicle_angle_of_attack : ℝ) : ℝ :=
  (vehicle_lift + (thrust_across_flightpath vehicle_propulsion_thrust_total wing_incidence
    vehicle_angle_of_attack)) / (vehicle_mass * (cos mission_flight_path_angle))

/-- aviary/mission/two_dof/ode/flight_path_eom.py:268 -/
noncomputable def dtalf_dthrust (wing_incidence vehicle_angle_of_attack : ℝ) : ℝ :=
  cos (((vehicle_angle_of_attack - wing_incidence) * π) / 180)

/-- aviary/mission/two_dof/ode/flight_path_eom.py:269 -/
noncomputable def dtalf_dalpha (vehicle_propulsion_thrust_total wing_incidence vehicle_angle_of_attack : ℝ) : ℝ :=
  (((-vehicle_propulsion_thrust_total) * (sin (((vehicle_angle_of_attack - wing_incidence) * π)
    / 180))) * π) / 180

/-- aviary/mission/two_dof/ode/flight_path_eom.py:270 -/
noncomputable def dtalf_diwing (vehicle_propulsion_thrust_total wing_incidence vehicle_angle_of_attack : ℝ) : ℝ :=
  ((vehicle_propulsion_thrust_total * (sin (((vehicle_angle_of_attack - wing_incidence) * π) /
    180))) * π) / 180

/-- aviary/mission/two_dof/ode/flight_path_eom.py:272 -/
noncomputable def dtacf_dthrust (wing_incidence vehicle_angle_of_attack : ℝ) : ℝ :=
  sin (((vehicle_angle_of_attack - wing_incidence) * π) / 180)

/-- aviary/mission/two_dof/ode/flight_path_eom.py:273 -/
noncomputable def dtacf_dalpha (vehicle_propulsion_thrust_total wing_incidence vehicle_angle_of_attack : ℝ) : ℝ :=
  ((vehicle_propulsion_thrust_total * (cos (((vehicle_angle_of_attack - wing_incidence) * π) /
    180))) * π) / 180

/-- aviary/mission/two_dof/ode/flight_path_eom.py:274 -/
noncomputable def dtacf_diwing (vehicle_propulsion_thrust_total wing_incidence vehicle_angle_of_attack : ℝ) : ℝ :=
  (((-vehicle_propulsion_thrust_total) * (cos (((vehicle_angle_of_attack - wing_incidence) * π)
    / 180))) * π) / 180

/-- aviary/mission/two_dof/ode/flight_path_eom.py:300 -/
noncomputable def dnf_dthrust (wing_incidence vehicle_angle_of_attack : ℝ) : ℝ :=
  (-1) * (dtacf_dthrust wing_incidence vehicle_angle_of_attack)

/-- aviary/mission/two_dof/ode/flight_path_eom.py:303 -/
noncomputable def dnf_diwing (vehicle_propulsion_thrust_total wing_incidence vehicle_angle_of_attack : ℝ) : ℝ :=
  (-1) * (dtacf_diwing vehicle_propulsion_thrust_total wing_incidence vehicle_angle_of_attack)

/-- aviary/mission/two_dof/ode/flight_path_eom.py:371 -/
noncomputable def dnf_dalpha (vehicle_propulsion_thrust_total wing_incidence vehicle_angle_of_attack : ℝ) : ℝ :=
  (-1) * (dtacf_dalpha vehicle_propulsion_thrust_total wing_incidence vehicle_angle_of_attack)

/-- Output `mission_velocity_rate` of `FlightPathEOM.compute`, aviary/mission/two_dof/ode/flight_path_eom.py:215 -/
noncomputable def out_mission_velocity_rate (gravity vehicle_mass vehicle_propulsion_thrust_total vehicle_lift vehicle_drag mission_flight_path_angle wing_incidence vehicle_angle_of_attack : ℝ) : ℝ :=
  (((((thrust_along_flightpath vehicle_propulsion_thrust_total wing_incidence
    vehicle_angle_of_attack) - vehicle_drag) - (vehicle_mass * (sin mission_flight_path_angle)))
    - (0 * (normal_force vehicle_mass vehicle_propulsion_thrust_total vehicle_lift
    wing_incidence vehicle_angle_of_attack))) * gravity) / vehicle_mass

/-- Output `mission_flight_path_angle_rate` of `FlightPathEOM.compute`, aviary/mission/two_dof/ode/flight_path_eom.py:227 -/
noncomputable def out_mission_flight_path_angle_rate (gravity vehicle_mass vehicle_propulsion_thrust_total vehicle_lift mission_velocity mission_flight_path_angle wing_incidence vehicle_angle_of_attack : ℝ) : ℝ :=
  ((((thrust_across_flightpath vehicle_propulsion_thrust_total wing_incidence
    vehicle_angle_of_attack) + vehicle_lift) - (vehicle_mass * (cos mission_flight_path_angle)))
    * gravity) / (mission_velocity * vehicle_mass)

/-- Output `mission_altitude_rate` of `FlightPathEOM.compute`, aviary/mission/two_dof/ode/flight_path_eom.py:232 -/
noncomputable def out_mission_altitude_rate (mission_velocity mission_flight_path_angle : ℝ) : ℝ :=
  mission_velocity * (sin mission_flight_path_angle)

/-- Output `mission_distance_rate` of `FlightPathEOM.compute`, aviary/mission/two_dof/ode/flight_path_eom.py:234 -/
noncomputable def out_mission_distance_rate (mission_velocity mission_flight_path_angle : ℝ) : ℝ :=
  mission_velocity * (cos mission_flight_path_angle)

/-- Output `normal_force` of `FlightPathEOM.compute`, aviary/mission/two_dof/ode/flight_path_eom.py:236 -/
noncomputable def out_normal_force (vehicle_mass vehicle_propulsion_thrust_total vehicle_lift wing_incidence vehicle_angle_of_attack : ℝ) : ℝ :=
  normal_force vehicle_mass vehicle_propulsion_thrust_total vehicle_lift wing_incidence
    vehicle_angle_of_attack

/-- Output `fuselage_pitch` of `FlightPathEOM.compute`, aviary/mission/two_dof/ode/flight_path_eom.py:238 -/
noncomputable def out_fuselage_pitch (mission_flight_path_angle wing_incidence vehicle_angle_of_attack : ℝ) : ℝ :=
  (((mission_flight_path_angle * 180) / π) - wing_incidence) + vehicle_angle_of_attack

/-- Output `load_factor` of `FlightPathEOM.compute`, aviary/mission/two_dof/ode/flight_path_eom.py:242 -/
noncomputable def out_load_factor (vehicle_mass vehicle_propulsion_thrust_total vehicle_lift mission_flight_path_angle wing_incidence vehicle_angle_of_attack : ℝ) : ℝ :=
  load_factor vehicle_mass vehicle_propulsion_thrust_total vehicle_lift
    mission_flight_path_angle wing_incidence vehicle_angle_of_attack

/-- Partial of `fuselage_pitch` with respect to `mission_flight_path_angle` as set by `FlightPathEOM`, aviary/mission/two_dof/ode/flight_path_eom.py:183 -/
noncomputable def J_fuselage_pitch__mission_flight_path_angle : ℝ := 180 / π

/-- Partial of `load_factor` with respect to `vehicle_lift` as set by `FlightPathEOM`, aviary/mission/two_dof/ode/flight_path_eom.py:276 -/
noncomputable def J_load_factor__vehicle_lift (vehicle_mass mission_flight_path_angle : ℝ) : ℝ :=
  1 / (vehicle_mass * (cos mission_flight_path_angle))

/-- Partial of `load_factor` with respect to `vehicle_mass` as set by `FlightPathEOM`, aviary/mission/two_dof/ode/flight_path_eom.py:277 -/
noncomputable def J_load_factor__vehicle_mass (vehicle_mass vehicle_propulsion_thrust_total vehicle_lift mission_flight_path_angle wing_incidence vehicle_angle_of_attack : ℝ) : ℝ :=
  (-(vehicle_lift + (thrust_across_flightpath vehicle_propulsion_thrust_total wing_incidence
    vehicle_angle_of_attack))) / ((vehicle_mass ^ 2) * (cos mission_flight_path_angle))

/-- Partial of `load_factor` with respect to `mission_flight_path_angle` as set by `FlightPathEOM`, aviary/mission/two_dof/ode/flight_path_eom.py:282 -/
noncomputable def J_load_factor__mission_flight_path_angle (vehicle_mass vehicle_propulsion_thrust_total vehicle_lift mission_flight_path_angle wing_incidence vehicle_angle_of_attack : ℝ) : ℝ :=
  ((-(vehicle_lift + (thrust_across_flightpath vehicle_propulsion_thrust_total wing_incidence
    vehicle_angle_of_attack))) / (vehicle_mass * ((cos mission_flight_path_angle) ^ 2))) *
    (-(sin mission_flight_path_angle))

/-- Partial of `load_factor` with respect to `vehicle_propulsion_thrust_total` as set by `FlightPathEOM`, aviary/mission/two_dof/ode/flight_path_eom.py:287 -/
noncomputable def J_load_factor__vehicle_propulsion_thrust_total (vehicle_mass mission_flight_path_angle wing_incidence vehicle_angle_of_attack : ℝ) : ℝ :=
  (dtacf_dthrust wing_incidence vehicle_angle_of_attack) / (vehicle_mass * (cos
    mission_flight_path_angle))

/-- Partial of `mission_velocity_rate` with respect to `vehicle_propulsion_thrust_total` as set by `FlightPathEOM`, aviary/mission/two_dof/ode/flight_path_eom.py:306 -/
noncomputable def J_mission_velocity_rate__vehicle_propulsion_thrust_total (gravity vehicle_mass wing_incidence vehicle_angle_of_attack : ℝ) : ℝ :=
  (((dtalf_dthrust wing_incidence vehicle_angle_of_attack) - (0 * (dnf_dthrust wing_incidence
    vehicle_angle_of_attack))) * gravity) / vehicle_mass

/-- Partial of `mission_velocity_rate` with respect to `vehicle_drag` as set by `FlightPathEOM`, aviary/mission/two_dof/ode/flight_path_eom.py:310 -/
noncomputable def J_mission_velocity_rate__vehicle_drag (gravity vehicle_mass : ℝ) : ℝ :=
  (-gravity) / vehicle_mass

/-- Partial of `mission_velocity_rate` with respect to `vehicle_mass` as set by `FlightPathEOM`, aviary/mission/two_dof/ode/flight_path_eom.py:311 -/
noncomputable def J_mission_velocity_rate__vehicle_mass (gravity vehicle_mass vehicle_propulsion_thrust_total vehicle_lift vehicle_drag mission_flight_path_angle wing_incidence vehicle_angle_of_attack : ℝ) : ℝ :=
  (gravity * ((vehicle_mass * ((-(sin mission_flight_path_angle)) - 0)) -
    ((((thrust_along_flightpath vehicle_propulsion_thrust_total wing_incidence
    vehicle_angle_of_attack) - vehicle_drag) - (vehicle_mass * (sin mission_flight_path_angle)))
    - (0 * (normal_force vehicle_mass vehicle_propulsion_thrust_total vehicle_lift
    wing_incidence vehicle_angle_of_attack))))) / (vehicle_mass ^ 2)

/-- Partial of `mission_velocity_rate` with respect to `mission_flight_path_angle` as set by `FlightPathEOM`, aviary/mission/two_dof/ode/flight_path_eom.py:325 -/
noncomputable def J_mission_velocity_rate__mission_flight_path_angle (gravity mission_flight_path_angle : ℝ) : ℝ :=
  (-(cos mission_flight_path_angle)) * gravity

/-- Partial of `mission_velocity_rate` with respect to `vehicle_lift` as set by `FlightPathEOM`, aviary/mission/two_dof/ode/flight_path_eom.py:328 -/
noncomputable def J_mission_velocity_rate__vehicle_lift (gravity vehicle_mass : ℝ) : ℝ :=
  (gravity * 0) / vehicle_mass

/-- Partial of `mission_altitude_rate` with respect to `mission_velocity` as set by `FlightPathEOM`, aviary/mission/two_dof/ode/flight_path_eom.py:338 -/
noncomputable def J_mission_altitude_rate__mission_velocity (mission_flight_path_angle : ℝ) : ℝ :=
  sin mission_flight_path_angle

/-- Partial of `mission_altitude_rate` with respect to `mission_flight_path_angle` as set by `FlightPathEOM`, aviary/mission/two_dof/ode/flight_path_eom.py:339 -/
noncomputable def J_mission_altitude_rate__mission_flight_path_angle (mission_velocity mission_flight_path_angle : ℝ) : ℝ :=
  mission_velocity * (cos mission_flight_path_angle)

/-- Partial of `mission_flight_path_angle_rate` with respect to `vehicle_propulsion_thrust_total` as set by `FlightPathEOM`, aviary/mission/two_dof/ode/flight_path_eom.py:343 -/
noncomputable def J_mission_flight_path_angle_rate__vehicle_propulsion_thrust_total (gravity vehicle_mass mission_velocity wing_incidence vehicle_angle_of_attack : ℝ) : ℝ :=
  ((dtacf_dthrust wing_incidence vehicle_angle_of_attack) * gravity) / (mission_velocity *
    vehicle_mass)

/-- Partial of `mission_flight_path_angle_rate` with respect to `vehicle_angle_of_attack` as set by `FlightPathEOM`, aviary/mission/two_dof/ode/flight_path_eom.py:347 -/
noncomputable def J_mission_flight_path_angle_rate__vehicle_angle_of_attack (gravity vehicle_mass vehicle_propulsion_thrust_total mission_velocity wing_incidence vehicle_angle_of_attack : ℝ) : ℝ :=
  ((dtacf_dalpha vehicle_propulsion_thrust_total wing_incidence vehicle_angle_of_attack) *
    gravity) / (mission_velocity * vehicle_mass)

/-- Partial of `mission_flight_path_angle_rate` with respect to `wing_incidence` as set by `FlightPathEOM`, aviary/mission/two_dof/ode/flight_path_eom.py:350 -/
noncomputable def J_mission_flight_path_angle_rate__wing_incidence (gravity vehicle_mass vehicle_propulsion_thrust_total mission_velocity wing_incidence vehicle_angle_of_attack : ℝ) : ℝ :=
  ((dtacf_diwing vehicle_propulsion_thrust_total wing_incidence vehicle_angle_of_attack) *
    gravity) / (mission_velocity * vehicle_mass)

/-- Partial of `mission_flight_path_angle_rate` with respect to `vehicle_lift` as set by `FlightPathEOM`, aviary/mission/two_dof/ode/flight_path_eom.py:353 -/
noncomputable def J_mission_flight_path_angle_rate__vehicle_lift (gravity vehicle_mass mission_velocity : ℝ) : ℝ :=
  gravity / (mission_velocity * vehicle_mass)

/-- Partial of `mission_flight_path_angle_rate` with respect to `vehicle_mass` as set by `FlightPathEOM`, aviary/mission/two_dof/ode/flight_path_eom.py:356 -/
noncomputable def J_mission_flight_path_angle_rate__vehicle_mass (gravity vehicle_mass vehicle_propulsion_thrust_total vehicle_lift mission_velocity wing_incidence vehicle_angle_of_attack : ℝ) : ℝ :=
  (gravity / mission_velocity) * (((-(thrust_across_flightpath vehicle_propulsion_thrust_total
    wing_incidence vehicle_angle_of_attack)) / (vehicle_mass ^ 2)) - (vehicle_lift /
    (vehicle_mass ^ 2)))

/-- Partial of `mission_flight_path_angle_rate` with respect to `mission_flight_path_angle` as set by `FlightPathEOM`, aviary/mission/two_dof/ode/flight_path_eom.py:361 -/
noncomputable def J_mission_flight_path_angle_rate__mission_flight_path_angle (gravity vehicle_mass mission_velocity mission_flight_path_angle : ℝ) : ℝ :=
  ((vehicle_mass * (sin mission_flight_path_angle)) * gravity) / (mission_velocity *
    vehicle_mass)

/-- Partial of `mission_flight_path_angle_rate` with respect to `mission_velocity` as set by `FlightPathEOM`, aviary/mission/two_dof/ode/flight_path_eom.py:365 -/
noncomputable def J_mission_flight_path_angle_rate__mission_velocity (gravity vehicle_mass vehicle_propulsion_thrust_total vehicle_lift mission_velocity mission_flight_path_angle wing_incidence vehicle_angle_of_attack : ℝ) : ℝ :=
  -(((((thrust_across_flightpath vehicle_propulsion_thrust_total wing_incidence
    vehicle_angle_of_attack) + vehicle_lift) - (vehicle_mass * (cos mission_flight_path_angle)))
    * gravity) / ((mission_velocity ^ 2) * vehicle_mass))

/-- Partial of `mission_velocity_rate` with respect to `vehicle_angle_of_attack` as set by `FlightPathEOM`, aviary/mission/two_dof/ode/flight_path_eom.py:373 -/
noncomputable def J_mission_velocity_rate__vehicle_angle_of_attack (gravity vehicle_mass vehicle_propulsion_thrust_total wing_incidence vehicle_angle_of_attack : ℝ) : ℝ :=
  (((dtalf_dalpha vehicle_propulsion_thrust_total wing_incidence vehicle_angle_of_attack) - (0 *
    (dnf_dalpha vehicle_propulsion_thrust_total wing_incidence vehicle_angle_of_attack))) *
    gravity) / vehicle_mass

/-- Partial of `normal_force` with respect to `vehicle_angle_of_attack` as set by `FlightPathEOM`, aviary/mission/two_dof/ode/flight_path_eom.py:376 -/
noncomputable def J_normal_force__vehicle_angle_of_attack (vehicle_propulsion_thrust_total wing_incidence vehicle_angle_of_attack : ℝ) : ℝ :=
  dnf_dalpha vehicle_propulsion_thrust_total wing_incidence vehicle_angle_of_attack

/-- Partial of `fuselage_pitch` with respect to `vehicle_angle_of_attack` as set by `FlightPathEOM`, aviary/mission/two_dof/ode/flight_path_eom.py:377 -/
noncomputable def J_fuselage_pitch__vehicle_angle_of_attack : ℝ := 1

/-- Partial of `load_factor` with respect to `vehicle_angle_of_attack` as set by `FlightPathEOM`, aviary/mission/two_dof/ode/flight_path_eom.py:378 -/
noncomputable def J_load_factor__vehicle_angle_of_attack (vehicle_mass vehicle_propulsion_thrust_total mission_flight_path_angle wing_incidence vehicle_angle_of_attack : ℝ) : ℝ :=
  (dtacf_dalpha vehicle_propulsion_thrust_total wing_incidence vehicle_angle_of_attack) /
    (vehicle_mass * (cos mission_flight_path_angle))

/-- Partial of `mission_velocity_rate` with respect to `wing_incidence` as set by `FlightPathEOM`, aviary/mission/two_dof/ode/flight_path_eom.py:381 -/
noncomputable def J_mission_velocity_rate__wing_incidence (gravity vehicle_mass vehicle_propulsion_thrust_total wing_incidence vehicle_angle_of_attack : ℝ) : ℝ :=
  (((dtalf_diwing vehicle_propulsion_thrust_total wing_incidence vehicle_angle_of_attack) - (0 *
    (dnf_diwing vehicle_propulsion_thrust_total wing_incidence vehicle_angle_of_attack))) *
    gravity) / vehicle_mass

/-- Partial of `normal_force` with respect to `wing_incidence` as set by `FlightPathEOM`, aviary/mission/two_dof/ode/flight_path_eom.py:384 -/
noncomputable def J_normal_force__wing_incidence (vehicle_propulsion_thrust_total wing_incidence vehicle_angle_of_attack : ℝ) : ℝ :=
  dnf_diwing vehicle_propulsion_thrust_total wing_incidence vehicle_angle_of_attack

/-- Partial of `fuselage_pitch` with respect to `wing_incidence` as set by `FlightPathEOM`, aviary/mission/two_dof/ode/flight_path_eom.py:385 -/
noncomputable def J_fuselage_pitch__wing_incidence : ℝ := -1

/-- Partial of `load_factor` with respect to `wing_incidence` as set by `FlightPathEOM`, aviary/mission/two_dof/ode/flight_path_eom.py:386 -/
noncomputable def J_load_factor__wing_incidence (vehicle_mass vehicle_propulsion_thrust_total mission_flight_path_angle wing_incidence vehicle_angle_of_attack : ℝ) : ℝ :=
  (dtacf_diwing vehicle_propulsion_thrust_total wing_incidence vehicle_angle_of_attack) /
    (vehicle_mass * (cos mission_flight_path_angle))

/-- Partial of `mission_distance_rate` with respect to `mission_velocity` as set by `FlightPathEOM`, aviary/mission/two_dof/ode/flight_path_eom.py:388 -/
noncomputable def J_mission_distance_rate__mission_velocity (mission_flight_path_angle : ℝ) : ℝ :=
  cos mission_flight_path_angle

/-- Partial of `mission_distance_rate` with respect to `mission_flight_path_angle` as set by `FlightPathEOM`, aviary/mission/two_dof/ode/flight_path_eom.py:389 -/
noncomputable def J_mission_distance_rate__mission_flight_path_angle (mission_velocity mission_flight_path_angle : ℝ) : ℝ :=
  (-mission_velocity) * (sin mission_flight_path_angle)

/-- Partial of `normal_force` with respect to `vehicle_mass` as set by `FlightPathEOM`, aviary/mission/two_dof/ode/flight_path_eom.py:391 -/
noncomputable def J_normal_force__vehicle_mass : ℝ := 1

/-- Partial of `normal_force` with respect to `vehicle_lift` as set by `FlightPathEOM`, aviary/mission/two_dof/ode/flight_path_eom.py:392 -/
noncomputable def J_normal_force__vehicle_lift : ℝ := -1

/-- Partial of `normal_force` with respect to `vehicle_propulsion_thrust_total` as set by `FlightPathEOM`, aviary/mission/two_dof/ode/flight_path_eom.py:393 -/
noncomputable def J_normal_force__vehicle_propulsion_thrust_total (wing_incidence vehicle_angle_of_attack : ℝ) : ℝ :=
  dnf_dthrust wing_incidence vehicle_angle_of_attack

theorem d_mission_velocity_rate__vehicle_mass (gravity vehicle_mass
    vehicle_propulsion_thrust_total vehicle_lift vehicle_drag mission_flight_path_angle
    wing_incidence vehicle_angle_of_attack : ℝ) (h0 : 0 < vehicle_mass) :
    HasDerivAt (fun t => out_mission_velocity_rate gravity t vehicle_propulsion_thrust_total vehicle_lift vehicle_drag mission_flight_path_angle wing_incidence vehicle_angle_of_attack) (J_mission_velocity_rate__vehicle_mass gravity vehicle_mass vehicle_propulsion_thrust_total vehicle_lift vehicle_drag mission_flight_path_angle wing_incidence vehicle_angle_of_attack) vehicle_mass := by
  simp only [out_mission_velocity_rate, J_mission_velocity_rate__vehicle_mass, normal_force, thrust_across_flightpath, thrust_along_flightpath]
  (apply hasDerivAt_of_eq; on_goal 1 => (repeat' comp_step))
  all_goals try comp_side
  all_goals try simp only [mul_zero, zero_mul, add_zero, zero_add, sub_zero, zero_sub, mul_one, one_mul]
  all_goals try push_cast
  all_goals comp_eq

theorem d_mission_velocity_rate__vehicle_propulsion_thrust_total (gravity vehicle_mass
    vehicle_propulsion_thrust_total vehicle_lift vehicle_drag mission_flight_path_angle
    wing_incidence vehicle_angle_of_attack : ℝ) (h0 : 0 < vehicle_mass) :
    HasDerivAt (fun t => out_mission_velocity_rate gravity vehicle_mass t vehicle_lift vehicle_drag mission_flight_path_angle wing_incidence vehicle_angle_of_attack) (J_mission_velocity_rate__vehicle_propulsion_thrust_total gravity vehicle_mass wing_incidence vehicle_angle_of_attack) vehicle_propulsion_thrust_total := by
  simp only [out_mission_velocity_rate, J_mission_velocity_rate__vehicle_propulsion_thrust_total, dnf_dthrust, dtacf_dthrust, dtalf_dthrust, normal_force, thrust_across_flightpath, thrust_along_flightpath]
  (apply hasDerivAt_of_eq; on_goal 1 => (repeat' comp_step))
  all_goals try comp_side
  all_goals try simp only [mul_zero, zero_mul, add_zero, zero_add, sub_zero, zero_sub, mul_one, one_mul]
  all_goals try push_cast
  all_goals comp_eq

theorem d_mission_velocity_rate__vehicle_lift (gravity vehicle_mass
    vehicle_propulsion_thrust_total vehicle_lift vehicle_drag mission_flight_path_angle
    wing_incidence vehicle_angle_of_attack : ℝ) (h0 : 0 < vehicle_mass) :
    HasDerivAt (fun t => out_mission_velocity_rate gravity vehicle_mass vehicle_propulsion_thrust_total t vehicle_drag mission_flight_path_angle wing_incidence vehicle_angle_of_attack) (J_mission_velocity_rate__vehicle_lift gravity vehicle_mass) vehicle_lift := by
  simp only [out_mission_velocity_rate, J_mission_velocity_rate__vehicle_lift, normal_force, thrust_across_flightpath, thrust_along_flightpath]
  (apply hasDerivAt_of_eq; on_goal 1 => (repeat' comp_step))
  all_goals try comp_side
  all_goals try simp only [mul_zero, zero_mul, add_zero, zero_add, sub_zero, zero_sub, mul_one, one_mul]
  all_goals try push_cast
  all_goals comp_eq

theorem d_mission_velocity_rate__vehicle_drag (gravity vehicle_mass
    vehicle_propulsion_thrust_total vehicle_lift vehicle_drag mission_flight_path_angle
    wing_incidence vehicle_angle_of_attack : ℝ) (h0 : 0 < vehicle_mass) :
    HasDerivAt (fun t => out_mission_velocity_rate gravity vehicle_mass vehicle_propulsion_thrust_total vehicle_lift t mission_flight_path_angle wing_incidence vehicle_angle_of_attack) (J_mission_velocity_rate__vehicle_drag gravity vehicle_mass) vehicle_drag := by
  simp only [out_mission_velocity_rate, J_mission_velocity_rate__vehicle_drag, normal_force, thrust_across_flightpath, thrust_along_flightpath]
  (apply hasDerivAt_of_eq; on_goal 1 => (repeat' comp_step))
  all_goals try comp_side
  all_goals try simp only [mul_zero, zero_mul, add_zero, zero_add, sub_zero, zero_sub, mul_one, one_mul]
  all_goals try push_cast
  all_goals comp_eq

theorem d_mission_velocity_rate__mission_flight_path_angle (gravity vehicle_mass
    vehicle_propulsion_thrust_total vehicle_lift vehicle_drag mission_flight_path_angle
    wing_incidence vehicle_angle_of_attack : ℝ) (h0 : 0 < vehicle_mass) :
    HasDerivAt (fun t => out_mission_velocity_rate gravity vehicle_mass vehicle_propulsion_thrust_total vehicle_lift vehicle_drag t wing_incidence vehicle_angle_of_attack) (J_mission_velocity_rate__mission_flight_path_angle gravity mission_flight_path_angle) mission_flight_path_angle := by
  simp only [out_mission_velocity_rate, J_mission_velocity_rate__mission_flight_path_angle, normal_force, thrust_across_flightpath, thrust_along_flightpath]
  (apply hasDerivAt_of_eq; on_goal 1 => (repeat' comp_step))
  all_goals try comp_side
  all_goals try simp only [mul_zero, zero_mul, add_zero, zero_add, sub_zero, zero_sub, mul_one, one_mul]
  all_goals try push_cast
  all_goals comp_eq

theorem d_mission_velocity_rate__wing_incidence (gravity vehicle_mass
    vehicle_propulsion_thrust_total vehicle_lift vehicle_drag mission_flight_path_angle
    wing_incidence vehicle_angle_of_attack : ℝ) (h0 : 0 < vehicle_mass) :
    HasDerivAt (fun t => out_mission_velocity_rate gravity vehicle_mass vehicle_propulsion_thrust_total vehicle_lift vehicle_drag mission_flight_path_angle t vehicle_angle_of_attack) (J_mission_velocity_rate__wing_incidence gravity vehicle_mass vehicle_propulsion_thrust_total wing_incidence vehicle_angle_of_attack) wing_incidence := by
  simp only [out_mission_velocity_rate, J_mission_velocity_rate__wing_incidence, dnf_diwing, dtacf_diwing, dtalf_diwing, normal_force, thrust_across_flightpath, thrust_along_flightpath]
  (apply hasDerivAt_of_eq; on_goal 1 => (repeat' comp_step))
  all_goals try comp_side
  all_goals try simp only [mul_zero, zero_mul, add_zero, zero_add, sub_zero, zero_sub, mul_one, one_mul]
  all_goals try push_cast
  all_goals comp_eq

theorem d_mission_velocity_rate__vehicle_angle_of_attack (gravity vehicle_mass
    vehicle_propulsion_thrust_total vehicle_lift vehicle_drag mission_flight_path_angle
    wing_incidence vehicle_angle_of_attack : ℝ) (h0 : 0 < vehicle_mass) :
    HasDerivAt (fun t => out_mission_velocity_rate gravity vehicle_mass vehicle_propulsion_thrust_total vehicle_lift vehicle_drag mission_flight_path_angle wing_incidence t) (J_mission_velocity_rate__vehicle_angle_of_attack gravity vehicle_mass vehicle_propulsion_thrust_total wing_incidence vehicle_angle_of_attack) vehicle_angle_of_attack := by
  simp only [out_mission_velocity_rate, J_mission_velocity_rate__vehicle_angle_of_attack, dnf_dalpha, dtacf_dalpha, dtalf_dalpha, normal_force, thrust_across_flightpath, thrust_along_flightpath]
  (apply hasDerivAt_of_eq; on_goal 1 => (repeat' comp_step))
  all_goals try comp_side
  all_goals try simp only [mul_zero, zero_mul, add_zero, zero_add, sub_zero, zero_sub, mul_one, one_mul]
  all_goals try push_cast
  all_goals comp_eq

theorem d_mission_flight_path_angle_rate__vehicle_mass (gravity vehicle_mass
    vehicle_propulsion_thrust_total vehicle_lift mission_velocity mission_flight_path_angle
    wing_incidence vehicle_angle_of_attack : ℝ) (h0 : 0 < mission_velocity) (h1 : 0 <
    vehicle_mass) :
    HasDerivAt (fun t => out_mission_flight_path_angle_rate gravity t vehicle_propulsion_thrust_total vehicle_lift mission_velocity mission_flight_path_angle wing_incidence vehicle_angle_of_attack) (J_mission_flight_path_angle_rate__vehicle_mass gravity vehicle_mass vehicle_propulsion_thrust_total vehicle_lift mission_velocity wing_incidence vehicle_angle_of_attack) vehicle_mass := by
  simp only [out_mission_flight_path_angle_rate, J_mission_flight_path_angle_rate__vehicle_mass, thrust_across_flightpath]
  (apply hasDerivAt_of_eq; on_goal 1 => (repeat' comp_step))
  all_goals try comp_side
  all_goals try simp only [mul_zero, zero_mul, add_zero, zero_add, sub_zero, zero_sub, mul_one, one_mul]
  all_goals try push_cast
  all_goals comp_eq

theorem d_mission_flight_path_angle_rate__vehicle_propulsion_thrust_total (gravity vehicle_mass
    vehicle_propulsion_thrust_total vehicle_lift mission_velocity mission_flight_path_angle
    wing_incidence vehicle_angle_of_attack : ℝ) (h0 : 0 < mission_velocity) (h1 : 0 <
    vehicle_mass) :
    HasDerivAt (fun t => out_mission_flight_path_angle_rate gravity vehicle_mass t vehicle_lift mission_velocity mission_flight_path_angle wing_incidence vehicle_angle_of_attack) (J_mission_flight_path_angle_rate__vehicle_propulsion_thrust_total gravity vehicle_mass mission_velocity wing_incidence vehicle_angle_of_attack) vehicle_propulsion_thrust_total := by
  simp only [out_mission_flight_path_angle_rate, J_mission_flight_path_angle_rate__vehicle_propulsion_thrust_total, dtacf_dthrust, thrust_across_flightpath]
  (apply hasDerivAt_of_eq; on_goal 1 => (repeat' comp_step))
  all_goals try comp_side
  all_goals try simp only [mul_zero, zero_mul, add_zero, zero_add, sub_zero, zero_sub, mul_one, one_mul]
  all_goals try push_cast
  all_goals comp_eq

theorem d_mission_flight_path_angle_rate__vehicle_lift (gravity vehicle_mass
    vehicle_propulsion_thrust_total vehicle_lift mission_velocity mission_flight_path_angle
    wing_incidence vehicle_angle_of_attack : ℝ) (h0 : 0 < mission_velocity) (h1 : 0 <
    vehicle_mass) :
    HasDerivAt (fun t => out_mission_flight_path_angle_rate gravity vehicle_mass vehicle_propulsion_thrust_total t mission_velocity mission_flight_path_angle wing_incidence vehicle_angle_of_attack) (J_mission_flight_path_angle_rate__vehicle_lift gravity vehicle_mass mission_velocity) vehicle_lift := by
  simp only [out_mission_flight_path_angle_rate, J_mission_flight_path_angle_rate__vehicle_lift, thrust_across_flightpath]
  (apply hasDerivAt_of_eq; on_goal 1 => (repeat' comp_step))
  all_goals try comp_side
  all_goals try simp only [mul_zero, zero_mul, add_zero, zero_add, sub_zero, zero_sub, mul_one, one_mul]
  all_goals try push_cast
  all_goals comp_eq

theorem d_mission_flight_path_angle_rate__mission_velocity (gravity vehicle_mass
    vehicle_propulsion_thrust_total vehicle_lift mission_velocity mission_flight_path_angle
    wing_incidence vehicle_angle_of_attack : ℝ) (h0 : 0 < mission_velocity) (h1 : 0 <
    vehicle_mass) :
    HasDerivAt (fun t => out_mission_flight_path_angle_rate gravity vehicle_mass vehicle_propulsion_thrust_total vehicle_lift t mission_flight_path_angle wing_incidence vehicle_angle_of_attack) (J_mission_flight_path_angle_rate__mission_velocity gravity vehicle_mass vehicle_propulsion_thrust_total vehicle_lift mission_velocity mission_flight_path_angle wing_incidence vehicle_angle_of_attack) mission_velocity := by
  simp only [out_mission_flight_path_angle_rate, J_mission_flight_path_angle_rate__mission_velocity, thrust_across_flightpath]
  (apply hasDerivAt_of_eq; on_goal 1 => (repeat' comp_step))
  all_goals try comp_side
  all_goals try simp only [mul_zero, zero_mul, add_zero, zero_add, sub_zero, zero_sub, mul_one, one_mul]
  all_goals try push_cast
  all_goals comp_eq

theorem d_mission_flight_path_angle_rate__mission_flight_path_angle (gravity vehicle_mass
    vehicle_propulsion_thrust_total vehicle_lift mission_velocity mission_flight_path_angle
    wing_incidence vehicle_angle_of_attack : ℝ) (h0 : 0 < mission_velocity) (h1 : 0 <
    vehicle_mass) :
    HasDerivAt (fun t => out_mission_flight_path_angle_rate gravity vehicle_mass vehicle_propulsion_thrust_total vehicle_lift mission_velocity t wing_incidence vehicle_angle_of_attack) (J_mission_flight_path_angle_rate__mission_flight_path_angle gravity vehicle_mass mission_velocity mission_flight_path_angle) mission_flight_path_angle := by
  simp only [out_mission_flight_path_angle_rate, J_mission_flight_path_angle_rate__mission_flight_path_angle, thrust_across_flightpath]
  (apply hasDerivAt_of_eq; on_goal 1 => (repeat' comp_step))
  all_goals try comp_side
  all_goals try simp only [mul_zero, zero_mul, add_zero, zero_add, sub_zero, zero_sub, mul_one, one_mul]
  all_goals try push_cast
  all_goals comp_eq

theorem d_mission_flight_path_angle_rate__wing_incidence (gravity vehicle_mass
    vehicle_propulsion_thrust_total vehicle_lift mission_velocity mission_flight_path_angle
    wing_incidence vehicle_angle_of_attack : ℝ) (h0 : 0 < mission_velocity) (h1 : 0 <
    vehicle_mass) :
    HasDerivAt (fun t => out_mission_flight_path_angle_rate gravity vehicle_mass vehicle_propulsion_thrust_total vehicle_lift mission_velocity mission_flight_path_angle t vehicle_angle_of_attack) (J_mission_flight_path_angle_rate__wing_incidence gravity vehicle_mass vehicle_propulsion_thrust_total mission_velocity wing_incidence vehicle_angle_of_attack) wing_incidence := by
  simp only [out_mission_flight_path_angle_rate, J_mission_flight_path_angle_rate__wing_incidence, dtacf_diwing, thrust_across_flightpath]
  (apply hasDerivAt_of_eq; on_goal 1 => (repeat' comp_step))
  all_goals try comp_side
  all_goals try simp only [mul_zero, zero_mul, add_zero, zero_add, sub_zero, zero_sub, mul_one, one_mul]
  all_goals try push_cast
  all_goals comp_eq

theorem d_mission_flight_path_angle_rate__vehicle_angle_of_attack (gravity vehicle_mass
    vehicle_propulsion_thrust_total vehicle_lift mission_velocity mission_flight_path_angle
    wing_incidence vehicle_angle_of_attack : ℝ) (h0 : 0 < mission_velocity) (h1 : 0 <
    vehicle_mass) :
    HasDerivAt (fun t => out_mission_flight_path_angle_rate gravity vehicle_mass vehicle_propulsion_thrust_total vehicle_lift mission_velocity mission_flight_path_angle wing_incidence t) (J_mission_flight_path_angle_rate__vehicle_angle_of_attack gravity vehicle_mass vehicle_propulsion_thrust_total mission_velocity wing_incidence vehicle_angle_of_attack) vehicle_angle_of_attack := by
  simp only [out_mission_flight_path_angle_rate, J_mission_flight_path_angle_rate__vehicle_angle_of_attack, dtacf_dalpha, thrust_across_flightpath]
  (apply hasDerivAt_of_eq; on_goal 1 => (repeat' comp_step))
  all_goals try comp_side
  all_goals try simp only [mul_zero, zero_mul, add_zero, zero_add, sub_zero, zero_sub, mul_one, one_mul]
  all_goals try push_cast
  all_goals comp_eq

theorem d_mission_altitude_rate__mission_velocity (mission_velocity mission_flight_path_angle : ℝ)
    :
    HasDerivAt (fun t => out_mission_altitude_rate t mission_flight_path_angle) (J_mission_altitude_rate__mission_velocity mission_flight_path_angle) mission_velocity := by
  simp only [out_mission_altitude_rate, J_mission_altitude_rate__mission_velocity]
  (apply hasDerivAt_of_eq; on_goal 1 => (repeat' comp_step))
  all_goals try comp_side
  all_goals try simp only [mul_zero, zero_mul, add_zero, zero_add, sub_zero, zero_sub, mul_one, one_mul]
  all_goals try push_cast
  all_goals comp_eq

theorem d_mission_altitude_rate__mission_flight_path_angle (mission_velocity
    mission_flight_path_angle : ℝ)  :
    HasDerivAt (fun t => out_mission_altitude_rate mission_velocity t) (J_mission_altitude_rate__mission_flight_path_angle mission_velocity mission_flight_path_angle) mission_flight_path_angle := by
  simp only [out_mission_altitude_rate, J_mission_altitude_rate__mission_flight_path_angle]
  (apply hasDerivAt_of_eq; on_goal 1 => (repeat' comp_step))
  all_goals try comp_side
  all_goals try simp only [mul_zero, zero_mul, add_zero, zero_add, sub_zero, zero_sub, mul_one, one_mul]
  all_goals try push_cast
  all_goals comp_eq

theorem d_mission_distance_rate__mission_velocity (mission_velocity mission_flight_path_angle : ℝ)
    :
    HasDerivAt (fun t => out_mission_distance_rate t mission_flight_path_angle) (J_mission_distance_rate__mission_velocity mission_flight_path_angle) mission_velocity := by
  simp only [out_mission_distance_rate, J_mission_distance_rate__mission_velocity]
  (apply hasDerivAt_of_eq; on_goal 1 => (repeat' comp_step))
  all_goals try comp_side
  all_goals try simp only [mul_zero, zero_mul, add_zero, zero_add, sub_zero, zero_sub, mul_one, one_mul]
  all_goals try push_cast
  all_goals comp_eq

theorem d_mission_distance_rate__mission_flight_path_angle (mission_velocity
    mission_flight_path_angle : ℝ)  :
    HasDerivAt (fun t => out_mission_distance_rate mission_velocity t) (J_mission_distance_rate__mission_flight_path_angle mission_velocity mission_flight_path_angle) mission_flight_path_angle := by
  simp only [out_mission_distance_rate, J_mission_distance_rate__mission_flight_path_angle]
  (apply hasDerivAt_of_eq; on_goal 1 => (repeat' comp_step))
  all_goals try comp_side
  all_goals try simp only [mul_zero, zero_mul, add_zero, zero_add, sub_zero, zero_sub, mul_one, one_mul]
  all_goals try push_cast
  all_goals comp_eq

theorem d_normal_force__vehicle_mass (vehicle_mass vehicle_propulsion_thrust_total vehicle_lift
    wing_incidence vehicle_angle_of_attack : ℝ)  :
    HasDerivAt (fun t => out_normal_force t vehicle_propulsion_thrust_total vehicle_lift wing_incidence vehicle_angle_of_attack) (J_normal_force__vehicle_mass) vehicle_mass := by
  simp only [out_normal_force, J_normal_force__vehicle_mass, normal_force, thrust_across_flightpath]
  (apply hasDerivAt_of_eq; on_goal 1 => (repeat' comp_step))
  all_goals try comp_side
  all_goals try simp only [mul_zero, zero_mul, add_zero, zero_add, sub_zero, zero_sub, mul_one, one_mul]
  all_goals try push_cast
  all_goals comp_eq

theorem d_normal_force__vehicle_propulsion_thrust_total (vehicle_mass
    vehicle_propulsion_thrust_total vehicle_lift wing_incidence vehicle_angle_of_attack : ℝ)  :
    HasDerivAt (fun t => out_normal_force vehicle_mass t vehicle_lift wing_incidence vehicle_angle_of_attack) (J_normal_force__vehicle_propulsion_thrust_total wing_incidence vehicle_angle_of_attack) vehicle_propulsion_thrust_total := by
  simp only [out_normal_force, J_normal_force__vehicle_propulsion_thrust_total, dnf_dthrust, dtacf_dthrust, normal_force, thrust_across_flightpath]
  (apply hasDerivAt_of_eq; on_goal 1 => (repeat' comp_step))
  all_goals try comp_side
  all_goals try simp only [mul_zero, zero_mul, add_zero, zero_add, sub_zero, zero_sub, mul_one, one_mul]
  all_goals try push_cast
  all_goals comp_eq

theorem d_normal_force__vehicle_lift (vehicle_mass vehicle_propulsion_thrust_total vehicle_lift
    wing_incidence vehicle_angle_of_attack : ℝ)  :
    HasDerivAt (fun t => out_normal_force vehicle_mass vehicle_propulsion_thrust_total t wing_incidence vehicle_angle_of_attack) (J_normal_force__vehicle_lift) vehicle_lift := by
  simp only [out_normal_force, J_normal_force__vehicle_lift, normal_force, thrust_across_flightpath]
  (apply hasDerivAt_of_eq; on_goal 1 => (repeat' comp_step))
  all_goals try comp_side
  all_goals try simp only [mul_zero, zero_mul, add_zero, zero_add, sub_zero, zero_sub, mul_one, one_mul]
  all_goals try push_cast
  all_goals comp_eq

theorem d_normal_force__wing_incidence (vehicle_mass vehicle_propulsion_thrust_total vehicle_lift
    wing_incidence vehicle_angle_of_attack : ℝ)  :
    HasDerivAt (fun t => out_normal_force vehicle_mass vehicle_propulsion_thrust_total vehicle_lift t vehicle_angle_of_attack) (J_normal_force__wing_incidence vehicle_propulsion_thrust_total wing_incidence vehicle_angle_of_attack) wing_incidence := by
  simp only [out_normal_force, J_normal_force__wing_incidence, dnf_diwing, dtacf_diwing, normal_force, thrust_across_flightpath]
  (apply hasDerivAt_of_eq; on_goal 1 => (repeat' comp_step))
  all_goals try comp_side
  all_goals try simp only [mul_zero, zero_mul, add_zero, zero_add, sub_zero, zero_sub, mul_one, one_mul]
  all_goals try push_cast
  all_goals comp_eq

theorem d_normal_force__vehicle_angle_of_attack (vehicle_mass vehicle_propulsion_thrust_total
    vehicle_lift wing_incidence vehicle_angle_of_attack : ℝ)  :
    HasDerivAt (fun t => out_normal_force vehicle_mass vehicle_propulsion_thrust_total vehicle_lift wing_incidence t) (J_normal_force__vehicle_angle_of_attack vehicle_propulsion_thrust_total wing_incidence vehicle_angle_of_attack) vehicle_angle_of_attack := by
  simp only [out_normal_force, J_normal_force__vehicle_angle_of_attack, dnf_dalpha, dtacf_dalpha, normal_force, thrust_across_flightpath]
  (apply hasDerivAt_of_eq; on_goal 1 => (repeat' comp_step))
  all_goals try comp_side
  all_goals try simp only [mul_zero, zero_mul, add_zero, zero_add, sub_zero, zero_sub, mul_one, one_mul]
  all_goals try push_cast
  all_goals comp_eq

theorem d_fuselage_pitch__mission_flight_path_angle (mission_flight_path_angle wing_incidence
    vehicle_angle_of_attack : ℝ)  :
    HasDerivAt (fun t => out_fuselage_pitch t wing_incidence vehicle_angle_of_attack) (J_fuselage_pitch__mission_flight_path_angle) mission_flight_path_angle := by
  simp only [out_fuselage_pitch, J_fuselage_pitch__mission_flight_path_angle]
  (apply hasDerivAt_of_eq; on_goal 1 => (repeat' comp_step))
  all_goals try comp_side
  all_goals try simp only [mul_zero, zero_mul, add_zero, zero_add, sub_zero, zero_sub, mul_one, one_mul]
  all_goals try push_cast
  all_goals comp_eq

theorem d_fuselage_pitch__wing_incidence (mission_flight_path_angle wing_incidence
    vehicle_angle_of_attack : ℝ)  :
    HasDerivAt (fun t => out_fuselage_pitch mission_flight_path_angle t vehicle_angle_of_attack) (J_fuselage_pitch__wing_incidence) wing_incidence := by
  simp only [out_fuselage_pitch, J_fuselage_pitch__wing_incidence]
  (apply hasDerivAt_of_eq; on_goal 1 => (repeat' comp_step))
  all_goals try comp_side
  all_goals try simp only [mul_zero, zero_mul, add_zero, zero_add, sub_zero, zero_sub, mul_one, one_mul]
  all_goals try push_cast
  all_goals comp_eq

theorem d_fuselage_pitch__vehicle_angle_of_attack (mission_flight_path_angle wing_incidence
    vehicle_angle_of_attack : ℝ)  :
    HasDerivAt (fun t => out_fuselage_pitch mission_flight_path_angle wing_incidence t) (J_fuselage_pitch__vehicle_angle_of_attack) vehicle_angle_of_attack := by
  simp only [out_fuselage_pitch, J_fuselage_pitch__vehicle_angle_of_attack]
  (apply hasDerivAt_of_eq; on_goal 1 => (repeat' comp_step))
  all_goals try comp_side
  all_goals try simp only [mul_zero, zero_mul, add_zero, zero_add, sub_zero, zero_sub, mul_one, one_mul]
  all_goals try push_cast
  all_goals comp_eq

theorem d_load_factor__vehicle_mass (vehicle_mass vehicle_propulsion_thrust_total vehicle_lift
    mission_flight_path_angle wing_incidence vehicle_angle_of_attack : ℝ) (h0 : 0 < vehicle_mass)
    (h1 : cos mission_flight_path_angle ≠ 0) :
    HasDerivAt (fun t => out_load_factor t vehicle_propulsion_thrust_total vehicle_lift mission_flight_path_angle wing_incidence vehicle_angle_of_attack) (J_load_factor__vehicle_mass vehicle_mass vehicle_propulsion_thrust_total vehicle_lift mission_flight_path_angle wing_incidence vehicle_angle_of_attack) vehicle_mass := by
  simp only [out_load_factor, J_load_factor__vehicle_mass, load_factor, thrust_across_flightpath]
  (apply hasDerivAt_of_eq; on_goal 1 => (repeat' comp_step))
  all_goals try comp_side
  all_goals try simp only [mul_zero, zero_mul, add_zero, zero_add, sub_zero, zero_sub, mul_one, one_mul]
  all_goals try push_cast
  all_goals comp_eq

theorem d_load_factor__vehicle_propulsion_thrust_total (vehicle_mass
    vehicle_propulsion_thrust_total vehicle_lift mission_flight_path_angle wing_incidence
    vehicle_angle_of_attack : ℝ) (h0 : 0 < vehicle_mass) (h1 : cos mission_flight_path_angle ≠ 0)
    :
    HasDerivAt (fun t => out_load_factor vehicle_mass t vehicle_lift mission_flight_path_angle wing_incidence vehicle_angle_of_attack) (J_load_factor__vehicle_propulsion_thrust_total vehicle_mass mission_flight_path_angle wing_incidence vehicle_angle_of_attack) vehicle_propulsion_thrust_total := by
  simp only [out_load_factor, J_load_factor__vehicle_propulsion_thrust_total, dtacf_dthrust, load_factor, thrust_across_flightpath]
  (apply hasDerivAt_of_eq; on_goal 1 => (repeat' comp_step))
  all_goals try comp_side
  all_goals try simp only [mul_zero, zero_mul, add_zero, zero_add, sub_zero, zero_sub, mul_one, one_mul]
  all_goals try push_cast
  all_goals comp_eq

theorem d_load_factor__vehicle_lift (vehicle_mass vehicle_propulsion_thrust_total vehicle_lift
    mission_flight_path_angle wing_incidence vehicle_angle_of_attack : ℝ) (h0 : 0 < vehicle_mass)
    (h1 : cos mission_flight_path_angle ≠ 0) :
    HasDerivAt (fun t => out_load_factor vehicle_mass vehicle_propulsion_thrust_total t mission_flight_path_angle wing_incidence vehicle_angle_of_attack) (J_load_factor__vehicle_lift vehicle_mass mission_flight_path_angle) vehicle_lift := by
  simp only [out_load_factor, J_load_factor__vehicle_lift, load_factor, thrust_across_flightpath]
  (apply hasDerivAt_of_eq; on_goal 1 => (repeat' comp_step))
  all_goals try comp_side
  all_goals try simp only [mul_zero, zero_mul, add_zero, zero_add, sub_zero, zero_sub, mul_one, one_mul]
  all_goals try push_cast
  all_goals comp_eq

theorem d_load_factor__mission_flight_path_angle (vehicle_mass vehicle_propulsion_thrust_total
    vehicle_lift mission_flight_path_angle wing_incidence vehicle_angle_of_attack : ℝ) (h0 : 0 <
    vehicle_mass) (h1 : cos mission_flight_path_angle ≠ 0) :
    HasDerivAt (fun t => out_load_factor vehicle_mass vehicle_propulsion_thrust_total vehicle_lift t wing_incidence vehicle_angle_of_attack) (J_load_factor__mission_flight_path_angle vehicle_mass vehicle_propulsion_thrust_total vehicle_lift mission_flight_path_angle wing_incidence vehicle_angle_of_attack) mission_flight_path_angle := by
  simp only [out_load_factor, J_load_factor__mission_flight_path_angle, load_factor, thrust_across_flightpath]
  (apply hasDerivAt_of_eq; on_goal 1 => (repeat' comp_step))
  all_goals try comp_side
  all_goals try simp only [mul_zero, zero_mul, add_zero, zero_add, sub_zero, zero_sub, mul_one, one_mul]
  all_goals try push_cast
  all_goals comp_eq

theorem d_load_factor__wing_incidence (vehicle_mass vehicle_propulsion_thrust_total vehicle_lift
    mission_flight_path_angle wing_incidence vehicle_angle_of_attack : ℝ) (h0 : 0 < vehicle_mass)
    (h1 : cos mission_flight_path_angle ≠ 0) :
    HasDerivAt (fun t => out_load_factor vehicle_mass vehicle_propulsion_thrust_total vehicle_lift mission_flight_path_angle t vehicle_angle_of_attack) (J_load_factor__wing_incidence vehicle_mass vehicle_propulsion_thrust_total mission_flight_path_angle wing_incidence vehicle_angle_of_attack) wing_incidence := by
  simp only [out_load_factor, J_load_factor__wing_incidence, dtacf_diwing, load_factor, thrust_across_flightpath]
  (apply hasDerivAt_of_eq; on_goal 1 => (repeat' comp_step))
  all_goals try comp_side
  all_goals try simp only [mul_zero, zero_mul, add_zero, zero_add, sub_zero, zero_sub, mul_one, one_mul]
  all_goals try push_cast
  all_goals comp_eq

theorem d_load_factor__vehicle_angle_of_attack (vehicle_mass vehicle_propulsion_thrust_total
    vehicle_lift mission_flight_path_angle wing_incidence vehicle_angle_of_attack : ℝ) (h0 : 0 <
    vehicle_mass) (h1 : cos mission_flight_path_angle ≠ 0) :
    HasDerivAt (fun t => out_load_factor vehicle_mass vehicle_propulsion_thrust_total vehicle_lift mission_flight_path_angle wing_incidence t) (J_load_factor__vehicle_angle_of_attack vehicle_mass vehicle_propulsion_thrust_total mission_flight_path_angle wing_incidence vehicle_angle_of_attack) vehicle_angle_of_attack := by
  simp only [out_load_factor, J_load_factor__vehicle_angle_of_attack, dtacf_dalpha, load_factor, thrust_across_flightpath]
  (apply hasDerivAt_of_eq; on_goal 1 => (repeat' comp_step))
  all_goals try comp_side
  all_goals try simp only [mul_zero, zero_mul, add_zero, zero_add, sub_zero, zero_sub, mul_one, one_mul]
  all_goals try push_cast
  all_goals comp_eq

/-- Every partial derivative set by `FlightPathEOM` is the derivative of its output. -/
theorem partials (gravity vehicle_mass vehicle_propulsion_thrust_total vehicle_lift vehicle_drag
    mission_velocity mission_flight_path_angle wing_incidence vehicle_angle_of_attack : ℝ) (h0 : 0
    < vehicle_mass) (h1 : 0 < mission_velocity) (h2 : cos mission_flight_path_angle ≠ 0) :
    HasDerivAt (fun t => out_mission_velocity_rate gravity t vehicle_propulsion_thrust_total
      vehicle_lift vehicle_drag mission_flight_path_angle wing_incidence vehicle_angle_of_attack)
      (J_mission_velocity_rate__vehicle_mass gravity vehicle_mass vehicle_propulsion_thrust_total
      vehicle_lift vehicle_drag mission_flight_path_angle wing_incidence vehicle_angle_of_attack)
      vehicle_mass ∧
    HasDerivAt (fun t => out_mission_velocity_rate gravity vehicle_mass t vehicle_lift vehicle_drag
      mission_flight_path_angle wing_incidence vehicle_angle_of_attack)
      (J_mission_velocity_rate__vehicle_propulsion_thrust_total gravity vehicle_mass
      wing_incidence vehicle_angle_of_attack) vehicle_propulsion_thrust_total ∧
    HasDerivAt (fun t => out_mission_velocity_rate gravity vehicle_mass
      vehicle_propulsion_thrust_total t vehicle_drag mission_flight_path_angle wing_incidence
      vehicle_angle_of_attack) (J_mission_velocity_rate__vehicle_lift gravity vehicle_mass)
      vehicle_lift ∧
    HasDerivAt (fun t => out_mission_velocity_rate gravity vehicle_mass
      vehicle_propulsion_thrust_total vehicle_lift t mission_flight_path_angle wing_incidence
      vehicle_angle_of_attack) (J_mission_velocity_rate__vehicle_drag gravity vehicle_mass)
      vehicle_drag ∧
    HasDerivAt (fun t => out_mission_velocity_rate gravity vehicle_mass
      vehicle_propulsion_thrust_total vehicle_lift vehicle_drag t wing_incidence
      vehicle_angle_of_attack) (J_mission_velocity_rate__mission_flight_path_angle gravity
      mission_flight_path_angle) mission_flight_path_angle ∧
    HasDerivAt (fun t => out_mission_velocity_rate gravity vehicle_mass
      vehicle_propulsion_thrust_total vehicle_lift vehicle_drag mission_flight_path_angle t
      vehicle_angle_of_attack) (J_mission_velocity_rate__wing_incidence gravity vehicle_mass
      vehicle_propulsion_thrust_total wing_incidence vehicle_angle_of_attack) wing_incidence ∧
    HasDerivAt (fun t => out_mission_velocity_rate gravity vehicle_mass
      vehicle_propulsion_thrust_total vehicle_lift vehicle_drag mission_flight_path_angle
      wing_incidence t) (J_mission_velocity_rate__vehicle_angle_of_attack gravity vehicle_mass
      vehicle_propulsion_thrust_total wing_incidence vehicle_angle_of_attack)
      vehicle_angle_of_attack ∧
    HasDerivAt (fun t => out_mission_flight_path_angle_rate gravity t vehicle_propulsion_thrust_total
      vehicle_lift mission_velocity mission_flight_path_angle wing_incidence
      vehicle_angle_of_attack) (J_mission_flight_path_angle_rate__vehicle_mass gravity
      vehicle_mass vehicle_propulsion_thrust_total vehicle_lift mission_velocity wing_incidence
      vehicle_angle_of_attack) vehicle_mass ∧
    HasDerivAt (fun t => out_mission_flight_path_angle_rate gravity vehicle_mass t vehicle_lift
      mission_velocity mission_flight_path_angle wing_incidence vehicle_angle_of_attack)
      (J_mission_flight_path_angle_rate__vehicle_propulsion_thrust_total gravity vehicle_mass
      mission_velocity wing_incidence vehicle_angle_of_attack) vehicle_propulsion_thrust_total ∧
    HasDerivAt (fun t => out_mission_flight_path_angle_rate gravity vehicle_mass
      vehicle_propulsion_thrust_total t mission_velocity mission_flight_path_angle wing_incidence
      vehicle_angle_of_attack) (J_mission_flight_path_angle_rate__vehicle_lift gravity
      vehicle_mass mission_velocity) vehicle_lift ∧
    HasDerivAt (fun t => out_mission_flight_path_angle_rate gravity vehicle_mass
      vehicle_propulsion_thrust_total vehicle_lift t mission_flight_path_angle wing_incidence
      vehicle_angle_of_attack) (J_mission_flight_path_angle_rate__mission_velocity gravity
      vehicle_mass vehicle_propulsion_thrust_total vehicle_lift mission_velocity
      mission_flight_path_angle wing_incidence vehicle_angle_of_attack) mission_velocity ∧
    HasDerivAt (fun t => out_mission_flight_path_angle_rate gravity vehicle_mass
      vehicle_propulsion_thrust_total vehicle_lift mission_velocity t wing_incidence
      vehicle_angle_of_attack) (J_mission_flight_path_angle_rate__mission_flight_path_angle
      gravity vehicle_mass mission_velocity mission_flight_path_angle) mission_flight_path_angle ∧
    HasDerivAt (fun t => out_mission_flight_path_angle_rate gravity vehicle_mass
      vehicle_propulsion_thrust_total vehicle_lift mission_velocity mission_flight_path_angle t
      vehicle_angle_of_attack) (J_mission_flight_path_angle_rate__wing_incidence gravity
      vehicle_mass vehicle_propulsion_thrust_total mission_velocity wing_incidence
      vehicle_angle_of_attack) wing_incidence ∧
    HasDerivAt (fun t => out_mission_flight_path_angle_rate gravity vehicle_mass
      vehicle_propulsion_thrust_total vehicle_lift mission_velocity mission_flight_path_angle
      wing_incidence t) (J_mission_flight_path_angle_rate__vehicle_angle_of_attack gravity
      vehicle_mass vehicle_propulsion_thrust_total mission_velocity wing_incidence
      vehicle_angle_of_attack) vehicle_angle_of_attack ∧
    HasDerivAt (fun t => out_mission_altitude_rate t mission_flight_path_angle)
      (J_mission_altitude_rate__mission_velocity mission_flight_path_angle) mission_velocity ∧
    HasDerivAt (fun t => out_mission_altitude_rate mission_velocity t)
      (J_mission_altitude_rate__mission_flight_path_angle mission_velocity
      mission_flight_path_angle) mission_flight_path_angle ∧
    HasDerivAt (fun t => out_mission_distance_rate t mission_flight_path_angle)
      (J_mission_distance_rate__mission_velocity mission_flight_path_angle) mission_velocity ∧
    HasDerivAt (fun t => out_mission_distance_rate mission_velocity t)
      (J_mission_distance_rate__mission_flight_path_angle mission_velocity
      mission_flight_path_angle) mission_flight_path_angle ∧
    HasDerivAt (fun t => out_normal_force t vehicle_propulsion_thrust_total vehicle_lift
      wing_incidence vehicle_angle_of_attack) (J_normal_force__vehicle_mass) vehicle_mass ∧
    HasDerivAt (fun t => out_normal_force vehicle_mass t vehicle_lift wing_incidence
      vehicle_angle_of_attack) (J_normal_force__vehicle_propulsion_thrust_total wing_incidence
      vehicle_angle_of_attack) vehicle_propulsion_thrust_total ∧
    HasDerivAt (fun t => out_normal_force vehicle_mass vehicle_propulsion_thrust_total t
      wing_incidence vehicle_angle_of_attack) (J_normal_force__vehicle_lift) vehicle_lift ∧
    HasDerivAt (fun t => out_normal_force vehicle_mass vehicle_propulsion_thrust_total vehicle_lift t
      vehicle_angle_of_attack) (J_normal_force__wing_incidence vehicle_propulsion_thrust_total
      wing_incidence vehicle_angle_of_attack) wing_incidence ∧
    HasDerivAt (fun t => out_normal_force vehicle_mass vehicle_propulsion_thrust_total vehicle_lift
      wing_incidence t) (J_normal_force__vehicle_angle_of_attack vehicle_propulsion_thrust_total
      wing_incidence vehicle_angle_of_attack) vehicle_angle_of_attack ∧
    HasDerivAt (fun t => out_fuselage_pitch t wing_incidence vehicle_angle_of_attack)
      (J_fuselage_pitch__mission_flight_path_angle) mission_flight_path_angle ∧
    HasDerivAt (fun t => out_fuselage_pitch mission_flight_path_angle t vehicle_angle_of_attack)
      (J_fuselage_pitch__wing_incidence) wing_incidence ∧
    HasDerivAt (fun t => out_fuselage_pitch mission_flight_path_angle wing_incidence t)
      (J_fuselage_pitch__vehicle_angle_of_attack) vehicle_angle_of_attack ∧
    HasDerivAt (fun t => out_load_factor t vehicle_propulsion_thrust_total vehicle_lift
      mission_flight_path_angle wing_incidence vehicle_angle_of_attack)
      (J_load_factor__vehicle_mass vehicle_mass vehicle_propulsion_thrust_total vehicle_lift
      mission_flight_path_angle wing_incidence vehicle_angle_of_attack) vehicle_mass ∧
    HasDerivAt (fun t => out_load_factor vehicle_mass t vehicle_lift mission_flight_path_angle
      wing_incidence vehicle_angle_of_attack) (J_load_factor__vehicle_propulsion_thrust_total
      vehicle_mass mission_flight_path_angle wing_incidence vehicle_angle_of_attack)
      vehicle_propulsion_thrust_total ∧
    HasDerivAt (fun t => out_load_factor vehicle_mass vehicle_propulsion_thrust_total t
      mission_flight_path_angle wing_incidence vehicle_angle_of_attack)
      (J_load_factor__vehicle_lift vehicle_mass mission_flight_path_angle) vehicle_lift ∧
    HasDerivAt (fun t => out_load_factor vehicle_mass vehicle_propulsion_thrust_total vehicle_lift t
      wing_incidence vehicle_angle_of_attack) (J_load_factor__mission_flight_path_angle
      vehicle_mass vehicle_propulsion_thrust_total vehicle_lift mission_flight_path_angle
      wing_incidence vehicle_angle_of_attack) mission_flight_path_angle ∧
    HasDerivAt (fun t => out_load_factor vehicle_mass vehicle_propulsion_thrust_total vehicle_lift
      mission_flight_path_angle t vehicle_angle_of_attack) (J_load_factor__wing_incidence
      vehicle_mass vehicle_propulsion_thrust_total mission_flight_path_angle wing_incidence
      vehicle_angle_of_attack) wing_incidence ∧
    HasDerivAt (fun t => out_load_factor vehicle_mass vehicle_propulsion_thrust_total vehicle_lift
      mission_flight_path_angle wing_incidence t) (J_load_factor__vehicle_angle_of_attack
      vehicle_mass vehicle_propulsion_thrust_total mission_flight_path_angle wing_incidence
      vehicle_angle_of_attack) vehicle_angle_of_attack :=
  ⟨d_mission_velocity_rate__vehicle_mass _ _ _ _ _ _ _ _ h0,
    d_mission_velocity_rate__vehicle_propulsion_thrust_total _ _ _ _ _ _ _ _ h0,
    d_mission_velocity_rate__vehicle_lift _ _ _ _ _ _ _ _ h0,
    d_mission_velocity_rate__vehicle_drag _ _ _ _ _ _ _ _ h0,
    d_mission_velocity_rate__mission_flight_path_angle _ _ _ _ _ _ _ _ h0,
    d_mission_velocity_rate__wing_incidence _ _ _ _ _ _ _ _ h0,
    d_mission_velocity_rate__vehicle_angle_of_attack _ _ _ _ _ _ _ _ h0,
    d_mission_flight_path_angle_rate__vehicle_mass _ _ _ _ _ _ _ _ h1 h0,
    d_mission_flight_path_angle_rate__vehicle_propulsion_thrust_total _ _ _ _ _ _ _ _ h1 h0,
    d_mission_flight_path_angle_rate__vehicle_lift _ _ _ _ _ _ _ _ h1 h0,
    d_mission_flight_path_angle_rate__mission_velocity _ _ _ _ _ _ _ _ h1 h0,
    d_mission_flight_path_angle_rate__mission_flight_path_angle _ _ _ _ _ _ _ _ h1 h0,
    d_mission_flight_path_angle_rate__wing_incidence _ _ _ _ _ _ _ _ h1 h0,
    d_mission_flight_path_angle_rate__vehicle_angle_of_attack _ _ _ _ _ _ _ _ h1 h0,
    d_mission_altitude_rate__mission_velocity _ _,
    d_mission_altitude_rate__mission_flight_path_angle _ _,
    d_mission_distance_rate__mission_velocity _ _,
    d_mission_distance_rate__mission_flight_path_angle _ _, d_normal_force__vehicle_mass _ _ _ _
    _, d_normal_force__vehicle_propulsion_thrust_total _ _ _ _ _, d_normal_force__vehicle_lift _ _
    _ _ _, d_normal_force__wing_incidence _ _ _ _ _, d_normal_force__vehicle_angle_of_attack _ _ _
    _ _, d_fuselage_pitch__mission_flight_path_angle _ _ _, d_fuselage_pitch__wing_incidence _ _
    _, d_fuselage_pitch__vehicle_angle_of_attack _ _ _, d_load_factor__vehicle_mass _ _ _ _ _ _ h0
    h2, d_load_factor__vehicle_propulsion_thrust_total _ _ _ _ _ _ h0 h2,
    d_load_factor__vehicle_lift _ _ _ _ _ _ h0 h2, d_load_factor__mission_flight_path_angle _ _ _
    _ _ _ h0 h2, d_load_factor__wing_incidence _ _ _ _ _ _ h0 h2,
    d_load_factor__vehicle_angle_of_attack _ _ _ _ _ _ h0 h2⟩

example : ∃ gravity vehicle_mass vehicle_propulsion_thrust_total vehicle_lift vehicle_drag
      mission_velocity mission_flight_path_angle wing_incidence vehicle_angle_of_attack : ℝ,
      0 < vehicle_mass ∧
      0 < mission_velocity ∧
      cos mission_flight_path_angle ≠ 0 :=
  ⟨0, 1, 0, 0, 0, 1, 0, 0, 0, by comp_example, by comp_example, by comp_example⟩

end Verif.Comp.MissionTwoDofOdeFlightPathEom.FlightPathEOM_no_groundroll

