import Verif.Lemmas.CompDeriv

/-! # Partial derivatives of the components of `aviary/mission/two_dof/ode/flight_path_eom.py`

One node of a vector component is modelled over the real numbers.  Each option that selects a
branch is fixed, one namespace per choice.  `out_x` is the output `x`, `J_x__y` the entry that
`compute_partials` (or `declare_partials` with `val`) assigns, `d_x__y` the proof that the entry is
the derivative.  Inputs an output does not take as argument have no influence on it. -/

set_option linter.all false

namespace Verif.Comp.MissionTwoDofOdeFlightPathEom.FlightPathEOM_groundroll
open Real

/-- aviary/mission/two_dof/ode/flight_path_eom.py:211 -/
noncomputable def thrust_along_flightpath (vehicle_propulsion_thrust_total wing_incidence : ℝ) : ℝ :=
  vehicle_propulsion_thrust_total * (cos (((wing_incidence - wing_incidence) * π) / 180))

/-- aviary/mission/two_dof/ode/flight_path_eom.py:212 -/
noncomputable def thrust_across_flightpath (vehicle_propulsion_thrust_total wing_incidence : ℝ) : ℝ :=
  vehicle_propulsion_thrust_total * (sin (((wing_incidence - wing_incidence) * π) / 180))

/-- aviary/mission/two_dof/ode/flight_path_eom.py:213 -/
noncomputable def normal_force (vehicle_mass vehicle_propulsion_thrust_total vehicle_lift wing_incidence : ℝ) : ℝ :=
  (vehicle_mass - vehicle_lift) - (thrust_across_flightpath vehicle_propulsion_thrust_total
    wing_incidence)

/-- aviary/mission/two_dof/ode/flight_path_eom.py:240 -/
noncomputable def load_factor (vehicle_mass vehicle_propulsion_thrust_total vehicle_lift mission_flight_path_angle wing_incidence : ℝ) : ℝ :=
  (vehicle_lift + (thrust_across_flightpath vehicle_propulsion_thrust_total wing_incidence)) /
    (vehicle_mass * (cos mission_flight_path_angle))

/-- aviary/mission/two_dof/ode/flight_path_eom.py:268 -/
noncomputable def dtalf_dthrust (wing_incidence : ℝ) : ℝ :=
  cos (((wing_incidence - wing_incidence) * π) / 180)

/-- aviary/mission/two_dof/ode/flight_path_eom.py:272 -/
noncomputable def dtacf_dthrust (wing_incidence : ℝ) : ℝ :=
  sin (((wing_incidence - wing_incidence) * π) / 180)

/-- aviary/mission/two_dof/ode/flight_path_eom.py:300 -/
noncomputable def dnf_dthrust (wing_incidence : ℝ) : ℝ := (-1) * (dtacf_dthrust wing_incidence)

/-- Output `mission_velocity_rate` of `FlightPathEOM.compute`, aviary/mission/two_dof/ode/flight_path_eom.py:215 -/
noncomputable def out_mission_velocity_rate (gravity takeoff_rolling_friction_coefficient vehicle_mass vehicle_propulsion_thrust_total vehicle_lift vehicle_drag mission_flight_path_angle wing_incidence : ℝ) : ℝ :=
  (((((thrust_along_flightpath vehicle_propulsion_thrust_total wing_incidence) - vehicle_drag) -
    (vehicle_mass * (sin mission_flight_path_angle))) - (takeoff_rolling_friction_coefficient *
    (normal_force vehicle_mass vehicle_propulsion_thrust_total vehicle_lift wing_incidence))) *
    gravity) / vehicle_mass

/-- Output `mission_distance_rate` of `FlightPathEOM.compute`, aviary/mission/two_dof/ode/flight_path_eom.py:234 -/
noncomputable def out_mission_distance_rate (mission_velocity mission_flight_path_angle : ℝ) : ℝ :=
  mission_velocity * (cos mission_flight_path_angle)

/-- Output `normal_force` of `FlightPathEOM.compute`, aviary/mission/two_dof/ode/flight_path_eom.py:236 -/
noncomputable def out_normal_force (vehicle_mass vehicle_propulsion_thrust_total vehicle_lift wing_incidence : ℝ) : ℝ :=
  normal_force vehicle_mass vehicle_propulsion_thrust_total vehicle_lift wing_incidence

/-- Output `fuselage_pitch` of `FlightPathEOM.compute`, aviary/mission/two_dof/ode/flight_path_eom.py:238 -/
noncomputable def out_fuselage_pitch (mission_flight_path_angle wing_incidence : ℝ) : ℝ :=
  (((mission_flight_path_angle * 180) / π) - wing_incidence) + wing_incidence

/-- Output `load_factor` of `FlightPathEOM.compute`, aviary/mission/two_dof/ode/flight_path_eom.py:242 -/
noncomputable def out_load_factor (vehicle_mass vehicle_propulsion_thrust_total vehicle_lift mission_flight_path_angle wing_incidence : ℝ) : ℝ :=
  load_factor vehicle_mass vehicle_propulsion_thrust_total vehicle_lift
    mission_flight_path_angle wing_incidence

/-- Partial of `fuselage_pitch` with respect to `mission_flight_path_angle` as set by `FlightPathEOM`, aviary/mission/two_dof/ode/flight_path_eom.py:183 -/
noncomputable def J_fuselage_pitch__mission_flight_path_angle : ℝ := 180 / π

/-- Partial of `load_factor` with respect to `vehicle_lift` as set by `FlightPathEOM`, aviary/mission/two_dof/ode/flight_path_eom.py:276 -/
noncomputable def J_load_factor__vehicle_lift (vehicle_mass mission_flight_path_angle : ℝ) : ℝ :=
  1 / (vehicle_mass * (cos mission_flight_path_angle))

/-- Partial of `load_factor` with respect to `vehicle_mass` as set by `FlightPathEOM`, aviary/mission/two_dof/ode/flight_path_eom.py:277 -/
noncomputable def J_load_factor__vehicle_mass (vehicle_mass vehicle_propulsion_thrust_total vehicle_lift mission_flight_path_angle wing_incidence : ℝ) : ℝ :=
  (-(vehicle_lift + (thrust_across_flightpath vehicle_propulsion_thrust_total wing_incidence)))
    / ((vehicle_mass ^ 2) * (cos mission_flight_path_angle))

/-- Partial of `load_factor` with respect to `mission_flight_path_angle` as set by `FlightPathEOM`, aviary/mission/two_dof/ode/flight_path_eom.py:282 -/
noncomputable def J_load_factor__mission_flight_path_angle (vehicle_mass vehicle_propulsion_thrust_total vehicle_lift mission_flight_path_angle wing_incidence : ℝ) : ℝ :=
  ((-(vehicle_lift + (thrust_across_flightpath vehicle_propulsion_thrust_total wing_incidence)))
    / (vehicle_mass * ((cos mission_flight_path_angle) ^ 2))) * (-(sin
    mission_flight_path_angle))

/-- Partial of `load_factor` with respect to `vehicle_propulsion_thrust_total` as set by `FlightPathEOM`, aviary/mission/two_dof/ode/flight_path_eom.py:287 -/
noncomputable def J_load_factor__vehicle_propulsion_thrust_total (vehicle_mass mission_flight_path_angle wing_incidence : ℝ) : ℝ :=
  (dtacf_dthrust wing_incidence) / (vehicle_mass * (cos mission_flight_path_angle))

/-- Partial of `mission_velocity_rate` with respect to `vehicle_propulsion_thrust_total` as set by `FlightPathEOM`, aviary/mission/two_dof/ode/flight_path_eom.py:306 -/
noncomputable def J_mission_velocity_rate__vehicle_propulsion_thrust_total (gravity takeoff_rolling_friction_coefficient vehicle_mass wing_incidence : ℝ) : ℝ :=
  (((dtalf_dthrust wing_incidence) - (takeoff_rolling_friction_coefficient * (dnf_dthrust
    wing_incidence))) * gravity) / vehicle_mass

/-- Partial of `mission_velocity_rate` with respect to `vehicle_drag` as set by `FlightPathEOM`, aviary/mission/two_dof/ode/flight_path_eom.py:310 -/
noncomputable def J_mission_velocity_rate__vehicle_drag (gravity vehicle_mass : ℝ) : ℝ :=
  (-gravity) / vehicle_mass

/-- Partial of `mission_velocity_rate` with respect to `vehicle_mass` as set by `FlightPathEOM`, aviary/mission/two_dof/ode/flight_path_eom.py:311 -/
noncomputable def J_mission_velocity_rate__vehicle_mass (gravity takeoff_rolling_friction_coefficient vehicle_mass vehicle_propulsion_thrust_total vehicle_lift vehicle_drag mission_flight_path_angle wing_incidence : ℝ) : ℝ :=
  (gravity * ((vehicle_mass * ((-(sin mission_flight_path_angle)) -
    takeoff_rolling_friction_coefficient)) - ((((thrust_along_flightpath
    vehicle_propulsion_thrust_total wing_incidence) - vehicle_drag) - (vehicle_mass * (sin
    mission_flight_path_angle))) - (takeoff_rolling_friction_coefficient * (normal_force
    vehicle_mass vehicle_propulsion_thrust_total vehicle_lift wing_incidence))))) /
    (vehicle_mass ^ 2)

/-- Partial of `mission_velocity_rate` with respect to `mission_flight_path_angle` as set by `FlightPathEOM`, aviary/mission/two_dof/ode/flight_path_eom.py:325 -/
noncomputable def J_mission_velocity_rate__mission_flight_path_angle (gravity mission_flight_path_angle : ℝ) : ℝ :=
  (-(cos mission_flight_path_angle)) * gravity

/-- Partial of `mission_velocity_rate` with respect to `vehicle_lift` as set by `FlightPathEOM`, aviary/mission/two_dof/ode/flight_path_eom.py:328 -/
noncomputable def J_mission_velocity_rate__vehicle_lift (gravity takeoff_rolling_friction_coefficient vehicle_mass : ℝ) : ℝ :=
  (gravity * ((-takeoff_rolling_friction_coefficient) * (-1))) / vehicle_mass

/-- Partial of `mission_velocity_rate` with respect to `takeoff_rolling_friction_coefficient` as set by `FlightPathEOM`, aviary/mission/two_dof/ode/flight_path_eom.py:332 -/
noncomputable def J_mission_velocity_rate__takeoff_rolling_friction_coefficient (gravity vehicle_mass vehicle_propulsion_thrust_total vehicle_lift wing_incidence : ℝ) : ℝ :=
  ((-(normal_force vehicle_mass vehicle_propulsion_thrust_total vehicle_lift wing_incidence)) *
    gravity) / vehicle_mass

/-- Partial of `mission_distance_rate` with respect to `mission_velocity` as set by `FlightPathEOM`, aviary/mission/two_dof/ode/flight_path_eom.py:388 -/
noncomputable def J_mission_distance_rate__mission_velocity (mission_flight_path_angle : ℝ) : ℝ :=
  cos mission_flight_path_angle

/-- Partial of `mission_distance_rate` with respect to `mission_flight_path_angle` as set by `FlightPathEOM`, aviary/mission/two_dof/ode/flight_path_eom.py:389 -/
noncomputable def J_mission_distance_rate__mission_flight_path_angle (mission_velocity mission_flight_path_angle : ℝ) : ℝ :=
  (-mission_velocity) * (sin mission_flight_path_angle)

/-- Partial of `normal_force` with respect to `vehicle_mass` as set by `FlightPathEOM`, aviary/mission/two_dof/ode/flight_path_eom.py:391 -/
noncomputable def J_normal_force__vehicle_mass : ℝ := 1

/-- Partial of `normal_force` with respect to `vehicle_lift` as set by `FlightPathEOM`, aviary/mission/two_dof/ode/flight_path_eom.py:392 -/
noncomputable def J_normal_force__vehicle_lift : ℝ := -1

/-- Partial of `normal_force` with respect to `vehicle_propulsion_thrust_total` as set by `FlightPathEOM`, aviary/mission/two_dof/ode/flight_path_eom.py:393 -/
noncomputable def J_normal_force__vehicle_propulsion_thrust_total (wing_incidence : ℝ) : ℝ :=
  dnf_dthrust wing_incidence

theorem d_mission_velocity_rate__takeoff_rolling_friction_coefficient (gravity
    takeoff_rolling_friction_coefficient vehicle_mass vehicle_propulsion_thrust_total vehicle_lift
    vehicle_drag mission_flight_path_angle wing_incidence : ℝ) (h0 : 0 < vehicle_mass) :
    HasDerivAt (fun t => out_mission_velocity_rate gravity t vehicle_mass vehicle_propulsion_thrust_total vehicle_lift vehicle_drag mission_flight_path_angle wing_incidence) (J_mission_velocity_rate__takeoff_rolling_friction_coefficient gravity vehicle_mass vehicle_propulsion_thrust_total vehicle_lift wing_incidence) takeoff_rolling_friction_coefficient := by
  simp only [out_mission_velocity_rate, J_mission_velocity_rate__takeoff_rolling_friction_coefficient, normal_force, thrust_across_flightpath, thrust_along_flightpath]
  (apply hasDerivAt_of_eq; on_goal 1 => (repeat' comp_step))
  all_goals try comp_side
  all_goals try simp only [mul_zero, zero_mul, add_zero, zero_add, sub_zero, zero_sub, mul_one, one_mul]
  all_goals try push_cast
  all_goals comp_eq

theorem d_mission_velocity_rate__vehicle_mass (gravity takeoff_rolling_friction_coefficient
    vehicle_mass vehicle_propulsion_thrust_total vehicle_lift vehicle_drag
    mission_flight_path_angle wing_incidence : ℝ) (h0 : 0 < vehicle_mass) :
    HasDerivAt (fun t => out_mission_velocity_rate gravity takeoff_rolling_friction_coefficient t vehicle_propulsion_thrust_total vehicle_lift vehicle_drag mission_flight_path_angle wing_incidence) (J_mission_velocity_rate__vehicle_mass gravity takeoff_rolling_friction_coefficient vehicle_mass vehicle_propulsion_thrust_total vehicle_lift vehicle_drag mission_flight_path_angle wing_incidence) vehicle_mass := by
  simp only [out_mission_velocity_rate, J_mission_velocity_rate__vehicle_mass, normal_force, thrust_across_flightpath, thrust_along_flightpath]
  (apply hasDerivAt_of_eq; on_goal 1 => (repeat' comp_step))
  all_goals try comp_side
  all_goals try simp only [mul_zero, zero_mul, add_zero, zero_add, sub_zero, zero_sub, mul_one, one_mul]
  all_goals try push_cast
  all_goals comp_eq

theorem d_mission_velocity_rate__vehicle_propulsion_thrust_total (gravity
    takeoff_rolling_friction_coefficient vehicle_mass vehicle_propulsion_thrust_total vehicle_lift
    vehicle_drag mission_flight_path_angle wing_incidence : ℝ) (h0 : 0 < vehicle_mass) :
    HasDerivAt (fun t => out_mission_velocity_rate gravity takeoff_rolling_friction_coefficient vehicle_mass t vehicle_lift vehicle_drag mission_flight_path_angle wing_incidence) (J_mission_velocity_rate__vehicle_propulsion_thrust_total gravity takeoff_rolling_friction_coefficient vehicle_mass wing_incidence) vehicle_propulsion_thrust_total := by
  simp only [out_mission_velocity_rate, J_mission_velocity_rate__vehicle_propulsion_thrust_total, dnf_dthrust, dtacf_dthrust, dtalf_dthrust, normal_force, thrust_across_flightpath, thrust_along_flightpath]
  (apply hasDerivAt_of_eq; on_goal 1 => (repeat' comp_step))
  all_goals try comp_side
  all_goals try simp only [mul_zero, zero_mul, add_zero, zero_add, sub_zero, zero_sub, mul_one, one_mul]
  all_goals try push_cast
  all_goals comp_eq

theorem d_mission_velocity_rate__vehicle_lift (gravity takeoff_rolling_friction_coefficient
    vehicle_mass vehicle_propulsion_thrust_total vehicle_lift vehicle_drag
    mission_flight_path_angle wing_incidence : ℝ) (h0 : 0 < vehicle_mass) :
    HasDerivAt (fun t => out_mission_velocity_rate gravity takeoff_rolling_friction_coefficient vehicle_mass vehicle_propulsion_thrust_total t vehicle_drag mission_flight_path_angle wing_incidence) (J_mission_velocity_rate__vehicle_lift gravity takeoff_rolling_friction_coefficient vehicle_mass) vehicle_lift := by
  simp only [out_mission_velocity_rate, J_mission_velocity_rate__vehicle_lift, normal_force, thrust_across_flightpath, thrust_along_flightpath]
  (apply hasDerivAt_of_eq; on_goal 1 => (repeat' comp_step))
  all_goals try comp_side
  all_goals try simp only [mul_zero, zero_mul, add_zero, zero_add, sub_zero, zero_sub, mul_one, one_mul]
  all_goals try push_cast
  all_goals comp_eq

theorem d_mission_velocity_rate__vehicle_drag (gravity takeoff_rolling_friction_coefficient
    vehicle_mass vehicle_propulsion_thrust_total vehicle_lift vehicle_drag
    mission_flight_path_angle wing_incidence : ℝ) (h0 : 0 < vehicle_mass) :
    HasDerivAt (fun t => out_mission_velocity_rate gravity takeoff_rolling_friction_coefficient vehicle_mass vehicle_propulsion_thrust_total vehicle_lift t mission_flight_path_angle wing_incidence) (J_mission_velocity_rate__vehicle_drag gravity vehicle_mass) vehicle_drag := by
  simp only [out_mission_velocity_rate, J_mission_velocity_rate__vehicle_drag, normal_force, thrust_across_flightpath, thrust_along_flightpath]
  (apply hasDerivAt_of_eq; on_goal 1 => (repeat' comp_step))
  all_goals try comp_side
  all_goals try simp only [mul_zero, zero_mul, add_zero, zero_add, sub_zero, zero_sub, mul_one, one_mul]
  all_goals try push_cast
  all_goals comp_eq

theorem d_mission_velocity_rate__mission_flight_path_angle (gravity
    takeoff_rolling_friction_coefficient vehicle_mass vehicle_propulsion_thrust_total vehicle_lift
    vehicle_drag mission_flight_path_angle wing_incidence : ℝ) (h0 : 0 < vehicle_mass) :
    HasDerivAt (fun t => out_mission_velocity_rate gravity takeoff_rolling_friction_coefficient vehicle_mass vehicle_propulsion_thrust_total vehicle_lift vehicle_drag t wing_incidence) (J_mission_velocity_rate__mission_flight_path_angle gravity mission_flight_path_angle) mission_flight_path_angle := by
  simp only [out_mission_velocity_rate, J_mission_velocity_rate__mission_flight_path_angle, normal_force, thrust_across_flightpath, thrust_along_flightpath]
  (apply hasDerivAt_of_eq; on_goal 1 => (repeat' comp_step))
  all_goals try comp_side
  all_goals try simp only [mul_zero, zero_mul, add_zero, zero_add, sub_zero, zero_sub, mul_one, one_mul]
  all_goals try push_cast
  all_goals comp_eq

theorem d_mission_distance_rate__mission_velocity (mission_velocity mission_flight_path_angle : ℝ)
    :
    HasDerivAt (fun t => out_mission_distance_rate t mission_flight_path_angle) (J_mission_distance_rate__mission_velocity mission_flight_path_angle) mission_velocity := by
  simp only [out_mission_distance_rate, J_mission_distance_rate__mission_velocity]
  (apply hasDerivAt_of_eq; on_goal 1 => (repeat' comp_step))
  all_goals try comp_side
  all_goals try simp only [mul_zero, zero_mul, add_zero, zero_add, sub_zero, zero_sub, mul_one, one_mul]
  all_goals try push_cast
  all_goals comp_eq

theorem d_mission_distance_rate__mission_flight_path_angle (mission_velocity
    mission_flight_path_angle : ℝ)  :
    HasDerivAt (fun t => out_mission_distance_rate mission_velocity t) (J_mission_distance_rate__mission_flight_path_angle mission_velocity mission_flight_path_angle) mission_flight_path_angle := by
  simp only [out_mission_distance_rate, J_mission_distance_rate__mission_flight_path_angle]
  (apply hasDerivAt_of_eq; on_goal 1 => (repeat' comp_step))
  all_goals try comp_side
  all_goals try simp only [mul_zero, zero_mul, add_zero, zero_add, sub_zero, zero_sub, mul_one, one_mul]
  all_goals try push_cast
  all_goals comp_eq

theorem d_normal_force__vehicle_mass (vehicle_mass vehicle_propulsion_thrust_total vehicle_lift
    wing_incidence : ℝ)  :
    HasDerivAt (fun t => out_normal_force t vehicle_propulsion_thrust_total vehicle_lift wing_incidence) (J_normal_force__vehicle_mass) vehicle_mass := by
  simp only [out_normal_force, J_normal_force__vehicle_mass, normal_force, thrust_across_flightpath]
  (apply hasDerivAt_of_eq; on_goal 1 => (repeat' comp_step))
  all_goals try comp_side
  all_goals try simp only [mul_zero, zero_mul, add_zero, zero_add, sub_zero, zero_sub, mul_one, one_mul]
  all_goals try push_cast
  all_goals comp_eq

theorem d_normal_force__vehicle_propulsion_thrust_total (vehicle_mass
    vehicle_propulsion_thrust_total vehicle_lift wing_incidence : ℝ)  :
    HasDerivAt (fun t => out_normal_force vehicle_mass t vehicle_lift wing_incidence) (J_normal_force__vehicle_propulsion_thrust_total wing_incidence) vehicle_propulsion_thrust_total := by
  simp only [out_normal_force, J_normal_force__vehicle_propulsion_thrust_total, dnf_dthrust, dtacf_dthrust, normal_force, thrust_across_flightpath]
  (apply hasDerivAt_of_eq; on_goal 1 => (repeat' comp_step))
  all_goals try comp_side
  all_goals try simp only [mul_zero, zero_mul, add_zero, zero_add, sub_zero, zero_sub, mul_one, one_mul]
  all_goals try push_cast
  all_goals comp_eq

theorem d_normal_force__vehicle_lift (vehicle_mass vehicle_propulsion_thrust_total vehicle_lift
    wing_incidence : ℝ)  :
    HasDerivAt (fun t => out_normal_force vehicle_mass vehicle_propulsion_thrust_total t wing_incidence) (J_normal_force__vehicle_lift) vehicle_lift := by
  simp only [out_normal_force, J_normal_force__vehicle_lift, normal_force, thrust_across_flightpath]
  (apply hasDerivAt_of_eq; on_goal 1 => (repeat' comp_step))
  all_goals try comp_side
  all_goals try simp only [mul_zero, zero_mul, add_zero, zero_add, sub_zero, zero_sub, mul_one, one_mul]
  all_goals try push_cast
  all_goals comp_eq

theorem d_fuselage_pitch__mission_flight_path_angle (mission_flight_path_angle wing_incidence : ℝ)
    :
    HasDerivAt (fun t => out_fuselage_pitch t wing_incidence) (J_fuselage_pitch__mission_flight_path_angle) mission_flight_path_angle := by
  simp only [out_fuselage_pitch, J_fuselage_pitch__mission_flight_path_angle]
  (apply hasDerivAt_of_eq; on_goal 1 => (repeat' comp_step))
  all_goals try comp_side
  all_goals try simp only [mul_zero, zero_mul, add_zero, zero_add, sub_zero, zero_sub, mul_one, one_mul]
  all_goals try push_cast
  all_goals comp_eq

theorem d_load_factor__vehicle_mass (vehicle_mass vehicle_propulsion_thrust_total vehicle_lift
    mission_flight_path_angle wing_incidence : ℝ) (h0 : 0 < vehicle_mass) (h1 : cos
    mission_flight_path_angle ≠ 0) :
    HasDerivAt (fun t => out_load_factor t vehicle_propulsion_thrust_total vehicle_lift mission_flight_path_angle wing_incidence) (J_load_factor__vehicle_mass vehicle_mass vehicle_propulsion_thrust_total vehicle_lift mission_flight_path_angle wing_incidence) vehicle_mass := by
  simp only [out_load_factor, J_load_factor__vehicle_mass, load_factor, thrust_across_flightpath]
  (apply hasDerivAt_of_eq; on_goal 1 => (repeat' comp_step))
  all_goals try comp_side
  all_goals try simp only [mul_zero, zero_mul, add_zero, zero_add, sub_zero, zero_sub, mul_one, one_mul]
  all_goals try push_cast
  all_goals comp_eq

theorem d_load_factor__vehicle_propulsion_thrust_total (vehicle_mass
    vehicle_propulsion_thrust_total vehicle_lift mission_flight_path_angle wing_incidence : ℝ) (h0
    : 0 < vehicle_mass) (h1 : cos mission_flight_path_angle ≠ 0) :
    HasDerivAt (fun t => out_load_factor vehicle_mass t vehicle_lift mission_flight_path_angle wing_incidence) (J_load_factor__vehicle_propulsion_thrust_total vehicle_mass mission_flight_path_angle wing_incidence) vehicle_propulsion_thrust_total := by
  simp only [out_load_factor, J_load_factor__vehicle_propulsion_thrust_total, dtacf_dthrust, load_factor, thrust_across_flightpath]
  (apply hasDerivAt_of_eq; on_goal 1 => (repeat' comp_step))
  all_goals try comp_side
  all_goals try simp only [mul_zero, zero_mul, add_zero, zero_add, sub_zero, zero_sub, mul_one, one_mul]
  all_goals try push_cast
  all_goals comp_eq

theorem d_load_factor__vehicle_lift (vehicle_mass vehicle_propulsion_thrust_total vehicle_lift
    mission_flight_path_angle wing_incidence : ℝ) (h0 : 0 < vehicle_mass) (h1 : cos
    mission_flight_path_angle ≠ 0) :
    HasDerivAt (fun t => out_load_factor vehicle_mass vehicle_propulsion_thrust_total t mission_flight_path_angle wing_incidence) (J_load_factor__vehicle_lift vehicle_mass mission_flight_path_angle) vehicle_lift := by
  simp only [out_load_factor, J_load_factor__vehicle_lift, load_factor, thrust_across_flightpath]
  (apply hasDerivAt_of_eq; on_goal 1 => (repeat' comp_step))
  all_goals try comp_side
  all_goals try simp only [mul_zero, zero_mul, add_zero, zero_add, sub_zero, zero_sub, mul_one, one_mul]
  all_goals try push_cast
  all_goals comp_eq

theorem d_load_factor__mission_flight_path_angle (vehicle_mass vehicle_propulsion_thrust_total
    vehicle_lift mission_flight_path_angle wing_incidence : ℝ) (h0 : 0 < vehicle_mass) (h1 : cos
    mission_flight_path_angle ≠ 0) :
    HasDerivAt (fun t => out_load_factor vehicle_mass vehicle_propulsion_thrust_total vehicle_lift t wing_incidence) (J_load_factor__mission_flight_path_angle vehicle_mass vehicle_propulsion_thrust_total vehicle_lift mission_flight_path_angle wing_incidence) mission_flight_path_angle := by
  simp only [out_load_factor, J_load_factor__mission_flight_path_angle, load_factor, thrust_across_flightpath]
  (apply hasDerivAt_of_eq; on_goal 1 => (repeat' comp_step))
  all_goals try comp_side
  all_goals try simp only [mul_zero, zero_mul, add_zero, zero_add, sub_zero, zero_sub, mul_one, one_mul]
  all_goals try push_cast
  all_goals comp_eq

/-- Every partial derivative set by `FlightPathEOM` is the derivative of its output. -/
theorem partials (gravity takeoff_rolling_friction_coefficient vehicle_mass
    vehicle_propulsion_thrust_total vehicle_lift vehicle_drag mission_velocity
    mission_flight_path_angle wing_incidence : ℝ) (h0 : 0 < vehicle_mass) (h1 : cos
    mission_flight_path_angle ≠ 0) :
    HasDerivAt (fun t => out_mission_velocity_rate gravity t vehicle_mass
      vehicle_propulsion_thrust_total vehicle_lift vehicle_drag mission_flight_path_angle
      wing_incidence) (J_mission_velocity_rate__takeoff_rolling_friction_coefficient gravity
      vehicle_mass vehicle_propulsion_thrust_total vehicle_lift wing_incidence)
      takeoff_rolling_friction_coefficient ∧
    HasDerivAt (fun t => out_mission_velocity_rate gravity takeoff_rolling_friction_coefficient t
      vehicle_propulsion_thrust_total vehicle_lift vehicle_drag mission_flight_path_angle
      wing_incidence) (J_mission_velocity_rate__vehicle_mass gravity
      takeoff_rolling_friction_coefficient vehicle_mass vehicle_propulsion_thrust_total
      vehicle_lift vehicle_drag mission_flight_path_angle wing_incidence) vehicle_mass ∧
    HasDerivAt (fun t => out_mission_velocity_rate gravity takeoff_rolling_friction_coefficient
      vehicle_mass t vehicle_lift vehicle_drag mission_flight_path_angle wing_incidence)
      (J_mission_velocity_rate__vehicle_propulsion_thrust_total gravity
      takeoff_rolling_friction_coefficient vehicle_mass wing_incidence)
      vehicle_propulsion_thrust_total ∧
    HasDerivAt (fun t => out_mission_velocity_rate gravity takeoff_rolling_friction_coefficient
      vehicle_mass vehicle_propulsion_thrust_total t vehicle_drag mission_flight_path_angle
      wing_incidence) (J_mission_velocity_rate__vehicle_lift gravity
      takeoff_rolling_friction_coefficient vehicle_mass) vehicle_lift ∧
    HasDerivAt (fun t => out_mission_velocity_rate gravity takeoff_rolling_friction_coefficient
      vehicle_mass vehicle_propulsion_thrust_total vehicle_lift t mission_flight_path_angle
      wing_incidence) (J_mission_velocity_rate__vehicle_drag gravity vehicle_mass) vehicle_drag ∧
    HasDerivAt (fun t => out_mission_velocity_rate gravity takeoff_rolling_friction_coefficient
      vehicle_mass vehicle_propulsion_thrust_total vehicle_lift vehicle_drag t wing_incidence)
      (J_mission_velocity_rate__mission_flight_path_angle gravity mission_flight_path_angle)
      mission_flight_path_angle ∧
    HasDerivAt (fun t => out_mission_distance_rate t mission_flight_path_angle)
      (J_mission_distance_rate__mission_velocity mission_flight_path_angle) mission_velocity ∧
    HasDerivAt (fun t => out_mission_distance_rate mission_velocity t)
      (J_mission_distance_rate__mission_flight_path_angle mission_velocity
      mission_flight_path_angle) mission_flight_path_angle ∧
    HasDerivAt (fun t => out_normal_force t vehicle_propulsion_thrust_total vehicle_lift
      wing_incidence) (J_normal_force__vehicle_mass) vehicle_mass ∧
    HasDerivAt (fun t => out_normal_force vehicle_mass t vehicle_lift wing_incidence)
      (J_normal_force__vehicle_propulsion_thrust_total wing_incidence)
      vehicle_propulsion_thrust_total ∧
    HasDerivAt (fun t => out_normal_force vehicle_mass vehicle_propulsion_thrust_total t
      wing_incidence) (J_normal_force__vehicle_lift) vehicle_lift ∧
    HasDerivAt (fun t => out_fuselage_pitch t wing_incidence)
      (J_fuselage_pitch__mission_flight_path_angle) mission_flight_path_angle ∧
    HasDerivAt (fun t => out_load_factor t vehicle_propulsion_thrust_total vehicle_lift
      mission_flight_path_angle wing_incidence) (J_load_factor__vehicle_mass vehicle_mass
      vehicle_propulsion_thrust_total vehicle_lift mission_flight_path_angle wing_incidence)
      vehicle_mass ∧
    HasDerivAt (fun t => out_load_factor vehicle_mass t vehicle_lift mission_flight_path_angle
      wing_incidence) (J_load_factor__vehicle_propulsion_thrust_total vehicle_mass
      mission_flight_path_angle wing_incidence) vehicle_propulsion_thrust_total ∧
    HasDerivAt (fun t => out_load_factor vehicle_mass vehicle_propulsion_thrust_total t
      mission_flight_path_angle wing_incidence) (J_load_factor__vehicle_lift vehicle_mass
      mission_flight_path_angle) vehicle_lift ∧
    HasDerivAt (fun t => out_load_factor vehicle_mass vehicle_propulsion_thrust_total vehicle_lift t
      wing_incidence) (J_load_factor__mission_flight_path_angle vehicle_mass
      vehicle_propulsion_thrust_total vehicle_lift mission_flight_path_angle wing_incidence)
      mission_flight_path_angle :=
  ⟨d_mission_velocity_rate__takeoff_rolling_friction_coefficient _ _ _ _ _ _ _ _ h0,
    d_mission_velocity_rate__vehicle_mass _ _ _ _ _ _ _ _ h0,
    d_mission_velocity_rate__vehicle_propulsion_thrust_total _ _ _ _ _ _ _ _ h0,
    d_mission_velocity_rate__vehicle_lift _ _ _ _ _ _ _ _ h0,
    d_mission_velocity_rate__vehicle_drag _ _ _ _ _ _ _ _ h0,
    d_mission_velocity_rate__mission_flight_path_angle _ _ _ _ _ _ _ _ h0,
    d_mission_distance_rate__mission_velocity _ _,
    d_mission_distance_rate__mission_flight_path_angle _ _, d_normal_force__vehicle_mass _ _ _ _,
    d_normal_force__vehicle_propulsion_thrust_total _ _ _ _, d_normal_force__vehicle_lift _ _ _ _,
    d_fuselage_pitch__mission_flight_path_angle _ _, d_load_factor__vehicle_mass _ _ _ _ _ h0 h1,
    d_load_factor__vehicle_propulsion_thrust_total _ _ _ _ _ h0 h1, d_load_factor__vehicle_lift _
    _ _ _ _ h0 h1, d_load_factor__mission_flight_path_angle _ _ _ _ _ h0 h1⟩

example : ∃ gravity takeoff_rolling_friction_coefficient vehicle_mass
      vehicle_propulsion_thrust_total vehicle_lift vehicle_drag mission_velocity
      mission_flight_path_angle wing_incidence : ℝ,
      0 < vehicle_mass ∧
      cos mission_flight_path_angle ≠ 0 :=
  ⟨0, 0, 1, 0, 0, 0, 0, 0, 0, by comp_example, by comp_example⟩

end Verif.Comp.MissionTwoDofOdeFlightPathEom.FlightPathEOM_groundroll

