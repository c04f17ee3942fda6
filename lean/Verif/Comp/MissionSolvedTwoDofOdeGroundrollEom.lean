import Verif.Lemmas.CompDeriv

/-! # Partial derivatives of the components of `aviary/mission/solved_two_dof/ode/groundroll_eom.py`

One node of a vector component is modelled over the real numbers.  Each option that selects a
branch is fixed, one namespace per choice.  `out_x` is the output `x`, `J_x__y` the entry that
`compute_partials` (or `declare_partials` with `val`) assigns, `d_x__y` the proof that the entry is
the derivative.  Inputs an output does not take as argument have no influence on it. -/

set_option linter.all false

namespace Verif.Comp.MissionSolvedTwoDofOdeGroundrollEom.GroundrollEOM
open Real

/-- aviary/mission/solved_two_dof/ode/groundroll_eom.py:152 -/
noncomputable abbrev thrust_along_flightpath (vehicle_propulsion_thrust_total wing_incidence vehicle_angle_of_attack : ℝ) : ℝ :=
  vehicle_propulsion_thrust_total * (cos (((vehicle_angle_of_attack - wing_incidence) * π) /
    180))

/-- aviary/mission/solved_two_dof/ode/groundroll_eom.py:153 -/
noncomputable abbrev thrust_across_flightpath (vehicle_propulsion_thrust_total wing_incidence vehicle_angle_of_attack : ℝ) : ℝ :=
  vehicle_propulsion_thrust_total * (sin (((vehicle_angle_of_attack - wing_incidence) * π) /
    180))

/-- aviary/mission/solved_two_dof/ode/groundroll_eom.py:154 -/
noncomputable abbrev normal_force (vehicle_mass vehicle_propulsion_thrust_total vehicle_lift wing_incidence vehicle_angle_of_attack : ℝ) : ℝ :=
  (vehicle_mass - vehicle_lift) - (thrust_across_flightpath vehicle_propulsion_thrust_total
    wing_incidence vehicle_angle_of_attack)

/-- aviary/mission/solved_two_dof/ode/groundroll_eom.py:155 -/
noncomputable abbrev normal_force_2 (vehicle_mass vehicle_propulsion_thrust_total vehicle_lift wing_incidence vehicle_angle_of_attack : ℝ) : ℝ :=
  if (normal_force vehicle_mass vehicle_propulsion_thrust_total vehicle_lift wing_incidence
    vehicle_angle_of_attack) < 0 then 0 else (normal_force vehicle_mass
    vehicle_propulsion_thrust_total vehicle_lift wing_incidence vehicle_angle_of_attack)

/-- aviary/mission/solved_two_dof/ode/groundroll_eom.py:194 -/
noncomputable abbrev dtalf_dthrust (wing_incidence vehicle_angle_of_attack : ℝ) : ℝ :=
  cos (((vehicle_angle_of_attack - wing_incidence) * π) / 180)

/-- aviary/mission/solved_two_dof/ode/groundroll_eom.py:195 -/
noncomputable abbrev dtalf_dalpha (vehicle_propulsion_thrust_total wing_incidence vehicle_angle_of_attack : ℝ) : ℝ :=
  (((-vehicle_propulsion_thrust_total) * (sin (((vehicle_angle_of_attack - wing_incidence) * π)
    / 180))) * π) / 180

/-- aviary/mission/solved_two_dof/ode/groundroll_eom.py:196 -/
noncomputable abbrev dtalf_diwing (vehicle_propulsion_thrust_total wing_incidence vehicle_angle_of_attack : ℝ) : ℝ :=
  ((vehicle_propulsion_thrust_total * (sin (((vehicle_angle_of_attack - wing_incidence) * π) /
    180))) * π) / 180

/-- aviary/mission/solved_two_dof/ode/groundroll_eom.py:198 -/
noncomputable abbrev dtacf_dthrust (wing_incidence vehicle_angle_of_attack : ℝ) : ℝ :=
  sin (((vehicle_angle_of_attack - wing_incidence) * π) / 180)

/-- aviary/mission/solved_two_dof/ode/groundroll_eom.py:199 -/
noncomputable abbrev dtacf_dalpha (vehicle_propulsion_thrust_total wing_incidence vehicle_angle_of_attack : ℝ) : ℝ :=
  ((vehicle_propulsion_thrust_total * (cos (((vehicle_angle_of_attack - wing_incidence) * π) /
    180))) * π) / 180

/-- aviary/mission/solved_two_dof/ode/groundroll_eom.py:200 -/
noncomputable abbrev dtacf_diwing (vehicle_propulsion_thrust_total wing_incidence vehicle_angle_of_attack : ℝ) : ℝ :=
  (((-vehicle_propulsion_thrust_total) * (cos (((vehicle_angle_of_attack - wing_incidence) * π)
    / 180))) * π) / 180

/-- aviary/mission/solved_two_dof/ode/groundroll_eom.py:202 -/
noncomputable abbrev normal_force1 (vehicle_mass vehicle_propulsion_thrust_total vehicle_lift wing_incidence vehicle_angle_of_attack : ℝ) : ℝ :=
  (vehicle_mass - vehicle_lift) - (thrust_across_flightpath vehicle_propulsion_thrust_total
    wing_incidence vehicle_angle_of_attack)

/-- aviary/mission/solved_two_dof/ode/groundroll_eom.py:203 -/
noncomputable abbrev normal_force_3 (vehicle_mass vehicle_propulsion_thrust_total vehicle_lift wing_incidence vehicle_angle_of_attack : ℝ) : ℝ :=
  if (normal_force1 vehicle_mass vehicle_propulsion_thrust_total vehicle_lift wing_incidence
    vehicle_angle_of_attack) < 0 then 0 else (normal_force1 vehicle_mass
    vehicle_propulsion_thrust_total vehicle_lift wing_incidence vehicle_angle_of_attack)

/-- aviary/mission/solved_two_dof/ode/groundroll_eom.py:206 -/
noncomputable abbrev dnf_dweight (vehicle_mass vehicle_propulsion_thrust_total vehicle_lift wing_incidence vehicle_angle_of_attack : ℝ) : ℝ :=
  if (normal_force1 vehicle_mass vehicle_propulsion_thrust_total vehicle_lift wing_incidence
    vehicle_angle_of_attack) < 0 then 0 else 1

/-- aviary/mission/solved_two_dof/ode/groundroll_eom.py:209 -/
noncomputable abbrev dnf_dlift (vehicle_mass vehicle_propulsion_thrust_total vehicle_lift wing_incidence vehicle_angle_of_attack : ℝ) : ℝ :=
  if (normal_force1 vehicle_mass vehicle_propulsion_thrust_total vehicle_lift wing_incidence
    vehicle_angle_of_attack) < 0 then 0 else (-1)

/-- aviary/mission/solved_two_dof/ode/groundroll_eom.py:211 -/
noncomputable abbrev dnf_dthrust (wing_incidence vehicle_angle_of_attack : ℝ) : ℝ :=
  (-1) * (dtacf_dthrust wing_incidence vehicle_angle_of_attack)

/-- aviary/mission/solved_two_dof/ode/groundroll_eom.py:212 -/
noncomputable abbrev dnf_dthrust_2 (vehicle_mass vehicle_propulsion_thrust_total vehicle_lift wing_incidence vehicle_angle_of_attack : ℝ) : ℝ :=
  if (normal_force1 vehicle_mass vehicle_propulsion_thrust_total vehicle_lift wing_incidence
    vehicle_angle_of_attack) < 0 then 0 else (dnf_dthrust wing_incidence
    vehicle_angle_of_attack)

/-- aviary/mission/solved_two_dof/ode/groundroll_eom.py:214 -/
noncomputable abbrev dnf_dalpha (vehicle_propulsion_thrust_total wing_incidence vehicle_angle_of_attack : ℝ) : ℝ :=
  (-1) * (dtacf_dalpha vehicle_propulsion_thrust_total wing_incidence vehicle_angle_of_attack)

/-- aviary/mission/solved_two_dof/ode/groundroll_eom.py:215 -/
noncomputable abbrev dnf_dalpha_2 (vehicle_mass vehicle_propulsion_thrust_total vehicle_lift wing_incidence vehicle_angle_of_attack : ℝ) : ℝ :=
  if (normal_force1 vehicle_mass vehicle_propulsion_thrust_total vehicle_lift wing_incidence
    vehicle_angle_of_attack) < 0 then 0 else (dnf_dalpha vehicle_propulsion_thrust_total
    wing_incidence vehicle_angle_of_attack)

/-- aviary/mission/solved_two_dof/ode/groundroll_eom.py:217 -/
noncomputable abbrev dnf_diwing (vehicle_propulsion_thrust_total wing_incidence vehicle_angle_of_attack : ℝ) : ℝ :=
  (-1) * (dtacf_diwing vehicle_propulsion_thrust_total wing_incidence vehicle_angle_of_attack)

/-- aviary/mission/solved_two_dof/ode/groundroll_eom.py:218 -/
noncomputable abbrev dnf_diwing_2 (vehicle_mass vehicle_propulsion_thrust_total vehicle_lift wing_incidence vehicle_angle_of_attack : ℝ) : ℝ :=
  if (normal_force1 vehicle_mass vehicle_propulsion_thrust_total vehicle_lift wing_incidence
    vehicle_angle_of_attack) < 0 then 0 else (dnf_diwing vehicle_propulsion_thrust_total
    wing_incidence vehicle_angle_of_attack)

/-- Output `mission_velocity_rate` of `GroundrollEOM.compute`, aviary/mission/solved_two_dof/ode/groundroll_eom.py:157 -/
noncomputable def out_mission_velocity_rate (gravity takeoff_rolling_friction_coefficient vehicle_mass vehicle_propulsion_thrust_total vehicle_lift vehicle_drag mission_flight_path_angle wing_incidence vehicle_angle_of_attack : ℝ) : ℝ :=
  (((((thrust_along_flightpath vehicle_propulsion_thrust_total wing_incidence
    vehicle_angle_of_attack) - vehicle_drag) - (vehicle_mass * (sin mission_flight_path_angle)))
    - (takeoff_rolling_friction_coefficient * (normal_force_2 vehicle_mass
    vehicle_propulsion_thrust_total vehicle_lift wing_incidence vehicle_angle_of_attack))) *
    gravity) / vehicle_mass

/-- Output `mission_flight_path_angle_rate` of `GroundrollEOM.compute`, aviary/mission/solved_two_dof/ode/groundroll_eom.py:167 -/
noncomputable def out_mission_flight_path_angle_rate : ℝ := 0

/-- Output `mission_altitude_rate` of `GroundrollEOM.compute`, aviary/mission/solved_two_dof/ode/groundroll_eom.py:169 -/
noncomputable def out_mission_altitude_rate (mission_velocity mission_flight_path_angle : ℝ) : ℝ :=
  mission_velocity * (sin mission_flight_path_angle)

/-- Output `mission_distance_rate` of `GroundrollEOM.compute`, aviary/mission/solved_two_dof/ode/groundroll_eom.py:170 -/
noncomputable def out_mission_distance_rate (mission_velocity mission_flight_path_angle : ℝ) : ℝ :=
  mission_velocity * (cos mission_flight_path_angle)

/-- Output `normal_force` of `GroundrollEOM.compute`, aviary/mission/solved_two_dof/ode/groundroll_eom.py:171 -/
noncomputable def out_normal_force (vehicle_mass vehicle_propulsion_thrust_total vehicle_lift wing_incidence vehicle_angle_of_attack : ℝ) : ℝ :=
  normal_force_2 vehicle_mass vehicle_propulsion_thrust_total vehicle_lift wing_incidence
    vehicle_angle_of_attack

/-- Output `fuselage_pitch` of `GroundrollEOM.compute`, aviary/mission/solved_two_dof/ode/groundroll_eom.py:173 -/
noncomputable def out_fuselage_pitch (mission_flight_path_angle wing_incidence vehicle_angle_of_attack : ℝ) : ℝ :=
  (((mission_flight_path_angle * 180) / π) - wing_incidence) + vehicle_angle_of_attack

/-- Output `angle_of_attack_rate` of `GroundrollEOM.compute`, aviary/mission/solved_two_dof/ode/groundroll_eom.py:174 -/
noncomputable def out_angle_of_attack_rate : ℝ := 0

/-- Partial of `fuselage_pitch` with respect to `mission_flight_path_angle` as set by `GroundrollEOM`, aviary/mission/solved_two_dof/ode/groundroll_eom.py:119 -/
noncomputable def J_fuselage_pitch__mission_flight_path_angle : ℝ := 180 / π

/-- Partial of `fuselage_pitch` with respect to `vehicle_angle_of_attack` as set by `GroundrollEOM`, aviary/mission/solved_two_dof/ode/groundroll_eom.py:126 -/
noncomputable def J_fuselage_pitch__vehicle_angle_of_attack : ℝ := 1

/-- Partial of `fuselage_pitch` with respect to `wing_incidence` as set by `GroundrollEOM`, aviary/mission/solved_two_dof/ode/groundroll_eom.py:133 -/
noncomputable def J_fuselage_pitch__wing_incidence : ℝ := -1

/-- Partial of `mission_velocity_rate` with respect to `vehicle_propulsion_thrust_total` as set by `GroundrollEOM`, aviary/mission/solved_two_dof/ode/groundroll_eom.py:220 -/
noncomputable def J_mission_velocity_rate__vehicle_propulsion_thrust_total (gravity takeoff_rolling_friction_coefficient vehicle_mass vehicle_propulsion_thrust_total vehicle_lift wing_incidence vehicle_angle_of_attack : ℝ) : ℝ :=
  (((dtalf_dthrust wing_incidence vehicle_angle_of_attack) -
    (takeoff_rolling_friction_coefficient * (dnf_dthrust_2 vehicle_mass
    vehicle_propulsion_thrust_total vehicle_lift wing_incidence vehicle_angle_of_attack))) *
    gravity) / vehicle_mass

/-- Partial of `mission_velocity_rate` with respect to `vehicle_angle_of_attack` as set by `GroundrollEOM`, aviary/mission/solved_two_dof/ode/groundroll_eom.py:223 -/
noncomputable def J_mission_velocity_rate__vehicle_angle_of_attack (gravity takeoff_rolling_friction_coefficient vehicle_mass vehicle_propulsion_thrust_total vehicle_lift wing_incidence vehicle_angle_of_attack : ℝ) : ℝ :=
  (((dtalf_dalpha vehicle_propulsion_thrust_total wing_incidence vehicle_angle_of_attack) -
    (takeoff_rolling_friction_coefficient * (dnf_dalpha_2 vehicle_mass
    vehicle_propulsion_thrust_total vehicle_lift wing_incidence vehicle_angle_of_attack))) *
    gravity) / vehicle_mass

/-- Partial of `mission_velocity_rate` with respect to `wing_incidence` as set by `GroundrollEOM`, aviary/mission/solved_two_dof/ode/groundroll_eom.py:226 -/
noncomputable def J_mission_velocity_rate__wing_incidence (gravity takeoff_rolling_friction_coefficient vehicle_mass vehicle_propulsion_thrust_total vehicle_lift wing_incidence vehicle_angle_of_attack : ℝ) : ℝ :=
  (((dtalf_diwing vehicle_propulsion_thrust_total wing_incidence vehicle_angle_of_attack) -
    (takeoff_rolling_friction_coefficient * (dnf_diwing_2 vehicle_mass
    vehicle_propulsion_thrust_total vehicle_lift wing_incidence vehicle_angle_of_attack))) *
    gravity) / vehicle_mass

/-- Partial of `mission_velocity_rate` with respect to `vehicle_drag` as set by `GroundrollEOM`, aviary/mission/solved_two_dof/ode/groundroll_eom.py:229 -/
noncomputable def J_mission_velocity_rate__vehicle_drag (gravity vehicle_mass : ℝ) : ℝ :=
  (-gravity) / vehicle_mass

/-- Partial of `mission_velocity_rate` with respect to `vehicle_mass` as set by `GroundrollEOM`, aviary/mission/solved_two_dof/ode/groundroll_eom.py:230 -/
noncomputable def J_mission_velocity_rate__vehicle_mass (gravity takeoff_rolling_friction_coefficient vehicle_mass vehicle_propulsion_thrust_total vehicle_lift vehicle_drag mission_flight_path_angle wing_incidence vehicle_angle_of_attack : ℝ) : ℝ :=
  (gravity * ((vehicle_mass * ((-(sin mission_flight_path_angle)) -
    (takeoff_rolling_friction_coefficient * (dnf_dweight vehicle_mass
    vehicle_propulsion_thrust_total vehicle_lift wing_incidence vehicle_angle_of_attack)))) -
    ((((thrust_along_flightpath vehicle_propulsion_thrust_total wing_incidence
    vehicle_angle_of_attack) - vehicle_drag) - (vehicle_mass * (sin mission_flight_path_angle)))
    - (takeoff_rolling_friction_coefficient * (normal_force_3 vehicle_mass
    vehicle_propulsion_thrust_total vehicle_lift wing_incidence vehicle_angle_of_attack))))) /
    (vehicle_mass ^ 2)

/-- Partial of `mission_velocity_rate` with respect to `mission_flight_path_angle` as set by `GroundrollEOM`, aviary/mission/solved_two_dof/ode/groundroll_eom.py:244 -/
noncomputable def J_mission_velocity_rate__mission_flight_path_angle (gravity mission_flight_path_angle : ℝ) : ℝ :=
  (-(cos mission_flight_path_angle)) * gravity

/-- Partial of `mission_velocity_rate` with respect to `vehicle_lift` as set by `GroundrollEOM`, aviary/mission/solved_two_dof/ode/groundroll_eom.py:247 -/
noncomputable def J_mission_velocity_rate__vehicle_lift (gravity takeoff_rolling_friction_coefficient vehicle_mass vehicle_propulsion_thrust_total vehicle_lift wing_incidence vehicle_angle_of_attack : ℝ) : ℝ :=
  (gravity * ((-takeoff_rolling_friction_coefficient) * (dnf_dlift vehicle_mass
    vehicle_propulsion_thrust_total vehicle_lift wing_incidence vehicle_angle_of_attack))) /
    vehicle_mass

/-- Partial of `mission_velocity_rate` with respect to `takeoff_rolling_friction_coefficient` as set by `GroundrollEOM`, aviary/mission/solved_two_dof/ode/groundroll_eom.py:250 -/
noncomputable def J_mission_velocity_rate__takeoff_rolling_friction_coefficient (gravity vehicle_mass vehicle_propulsion_thrust_total vehicle_lift wing_incidence vehicle_angle_of_attack : ℝ) : ℝ :=
  ((-(normal_force_3 vehicle_mass vehicle_propulsion_thrust_total vehicle_lift wing_incidence
    vehicle_angle_of_attack)) * gravity) / vehicle_mass

/-- Partial of `mission_altitude_rate` with respect to `mission_velocity` as set by `GroundrollEOM`, aviary/mission/solved_two_dof/ode/groundroll_eom.py:254 -/
noncomputable def J_mission_altitude_rate__mission_velocity (mission_flight_path_angle : ℝ) : ℝ :=
  sin mission_flight_path_angle

/-- Partial of `mission_altitude_rate` with respect to `mission_flight_path_angle` as set by `GroundrollEOM`, aviary/mission/solved_two_dof/ode/groundroll_eom.py:255 -/
noncomputable def J_mission_altitude_rate__mission_flight_path_angle (mission_velocity mission_flight_path_angle : ℝ) : ℝ :=
  mission_velocity * (cos mission_flight_path_angle)

/-- Partial of `mission_distance_rate` with respect to `mission_velocity` as set by `GroundrollEOM`, aviary/mission/solved_two_dof/ode/groundroll_eom.py:257 -/
noncomputable def J_mission_distance_rate__mission_velocity (mission_flight_path_angle : ℝ) : ℝ :=
  cos mission_flight_path_angle

/-- Partial of `mission_distance_rate` with respect to `mission_flight_path_angle` as set by `GroundrollEOM`, aviary/mission/solved_two_dof/ode/groundroll_eom.py:258 -/
noncomputable def J_mission_distance_rate__mission_flight_path_angle (mission_velocity mission_flight_path_angle : ℝ) : ℝ :=
  (-mission_velocity) * (sin mission_flight_path_angle)

/-- Partial of `normal_force` with respect to `vehicle_mass` as set by `GroundrollEOM`, aviary/mission/solved_two_dof/ode/groundroll_eom.py:260 -/
noncomputable def J_normal_force__vehicle_mass (vehicle_mass vehicle_propulsion_thrust_total vehicle_lift wing_incidence vehicle_angle_of_attack : ℝ) : ℝ :=
  dnf_dweight vehicle_mass vehicle_propulsion_thrust_total vehicle_lift wing_incidence
    vehicle_angle_of_attack

/-- Partial of `normal_force` with respect to `vehicle_lift` as set by `GroundrollEOM`, aviary/mission/solved_two_dof/ode/groundroll_eom.py:261 -/
noncomputable def J_normal_force__vehicle_lift (vehicle_mass vehicle_propulsion_thrust_total vehicle_lift wing_incidence vehicle_angle_of_attack : ℝ) : ℝ :=
  dnf_dlift vehicle_mass vehicle_propulsion_thrust_total vehicle_lift wing_incidence
    vehicle_angle_of_attack

/-- Partial of `normal_force` with respect to `vehicle_propulsion_thrust_total` as set by `GroundrollEOM`, aviary/mission/solved_two_dof/ode/groundroll_eom.py:262 -/
noncomputable def J_normal_force__vehicle_propulsion_thrust_total (vehicle_mass vehicle_propulsion_thrust_total vehicle_lift wing_incidence vehicle_angle_of_attack : ℝ) : ℝ :=
  dnf_dthrust_2 vehicle_mass vehicle_propulsion_thrust_total vehicle_lift wing_incidence
    vehicle_angle_of_attack

/-- Partial of `normal_force` with respect to `vehicle_angle_of_attack` as set by `GroundrollEOM`, aviary/mission/solved_two_dof/ode/groundroll_eom.py:263 -/
noncomputable def J_normal_force__vehicle_angle_of_attack (vehicle_mass vehicle_propulsion_thrust_total vehicle_lift wing_incidence vehicle_angle_of_attack : ℝ) : ℝ :=
  dnf_dalpha_2 vehicle_mass vehicle_propulsion_thrust_total vehicle_lift wing_incidence
    vehicle_angle_of_attack

/-- Partial of `normal_force` with respect to `wing_incidence` as set by `GroundrollEOM`, aviary/mission/solved_two_dof/ode/groundroll_eom.py:264 -/
noncomputable def J_normal_force__wing_incidence (vehicle_mass vehicle_propulsion_thrust_total vehicle_lift wing_incidence vehicle_angle_of_attack : ℝ) : ℝ :=
  dnf_diwing_2 vehicle_mass vehicle_propulsion_thrust_total vehicle_lift wing_incidence
    vehicle_angle_of_attack

theorem d_mission_velocity_rate__takeoff_rolling_friction_coefficient (gravity
    takeoff_rolling_friction_coefficient vehicle_mass vehicle_propulsion_thrust_total vehicle_lift
    vehicle_drag mission_flight_path_angle wing_incidence vehicle_angle_of_attack : ℝ) (h0 : 0 <
    vehicle_mass) :
    HasDerivAt (fun t => out_mission_velocity_rate gravity t vehicle_mass vehicle_propulsion_thrust_total vehicle_lift vehicle_drag mission_flight_path_angle wing_incidence vehicle_angle_of_attack) (J_mission_velocity_rate__takeoff_rolling_friction_coefficient gravity vehicle_mass vehicle_propulsion_thrust_total vehicle_lift wing_incidence vehicle_angle_of_attack) takeoff_rolling_friction_coefficient := by
  simp only [out_mission_velocity_rate, J_mission_velocity_rate__takeoff_rolling_friction_coefficient, normal_force_3, normal_force1, normal_force_2, normal_force, thrust_across_flightpath, thrust_along_flightpath]
  try split_ifs
  all_goals (apply hasDerivAt_of_eq; on_goal 1 => (repeat' comp_step))
  all_goals try comp_side
  all_goals try split_ifs
  all_goals try (exfalso; linarith)
  all_goals try simp only [mul_zero, zero_mul, add_zero, zero_add, sub_zero, zero_sub, mul_one, one_mul]
  all_goals try push_cast
  all_goals comp_eq

theorem d_mission_velocity_rate__vehicle_mass (gravity takeoff_rolling_friction_coefficient
    vehicle_mass vehicle_propulsion_thrust_total vehicle_lift vehicle_drag
    mission_flight_path_angle wing_incidence vehicle_angle_of_attack : ℝ) (h0 : (vehicle_mass -
    vehicle_lift) - (vehicle_propulsion_thrust_total * (sin (((vehicle_angle_of_attack -
    wing_incidence) * π) / 180))) ≠ 0) (h1 : 0 < vehicle_mass) (h2 : (vehicle_mass - vehicle_lift)
    - (vehicle_propulsion_thrust_total * (sin (((vehicle_angle_of_attack - wing_incidence) * π) /
    180))) ≠ 0) :
    HasDerivAt (fun t => out_mission_velocity_rate gravity takeoff_rolling_friction_coefficient t vehicle_propulsion_thrust_total vehicle_lift vehicle_drag mission_flight_path_angle wing_incidence vehicle_angle_of_attack) (J_mission_velocity_rate__vehicle_mass gravity takeoff_rolling_friction_coefficient vehicle_mass vehicle_propulsion_thrust_total vehicle_lift vehicle_drag mission_flight_path_angle wing_incidence vehicle_angle_of_attack) vehicle_mass := by
  simp only [out_mission_velocity_rate, J_mission_velocity_rate__vehicle_mass, normal_force_3, dnf_dweight, normal_force1, normal_force_2, normal_force, thrust_across_flightpath, thrust_along_flightpath]
  try split_ifs
  all_goals (apply hasDerivAt_of_eq; on_goal 1 => (repeat' comp_step))
  all_goals try comp_side
  all_goals try split_ifs
  all_goals try (exfalso; linarith)
  all_goals try simp only [mul_zero, zero_mul, add_zero, zero_add, sub_zero, zero_sub, mul_one, one_mul]
  all_goals try push_cast
  all_goals comp_eq

theorem d_mission_velocity_rate__vehicle_propulsion_thrust_total (gravity
    takeoff_rolling_friction_coefficient vehicle_mass vehicle_propulsion_thrust_total vehicle_lift
    vehicle_drag mission_flight_path_angle wing_incidence vehicle_angle_of_attack : ℝ) (h0 :
    (vehicle_mass - vehicle_lift) - (vehicle_propulsion_thrust_total * (sin
    (((vehicle_angle_of_attack - wing_incidence) * π) / 180))) ≠ 0) (h1 : 0 < vehicle_mass) (h2 :
    (vehicle_mass - vehicle_lift) - (vehicle_propulsion_thrust_total * (sin
    (((vehicle_angle_of_attack - wing_incidence) * π) / 180))) ≠ 0) :
    HasDerivAt (fun t => out_mission_velocity_rate gravity takeoff_rolling_friction_coefficient vehicle_mass t vehicle_lift vehicle_drag mission_flight_path_angle wing_incidence vehicle_angle_of_attack) (J_mission_velocity_rate__vehicle_propulsion_thrust_total gravity takeoff_rolling_friction_coefficient vehicle_mass vehicle_propulsion_thrust_total vehicle_lift wing_incidence vehicle_angle_of_attack) vehicle_propulsion_thrust_total := by
  simp only [out_mission_velocity_rate, J_mission_velocity_rate__vehicle_propulsion_thrust_total, dnf_dthrust_2, dnf_dthrust, dtacf_dthrust, normal_force1, dtalf_dthrust, normal_force_2, normal_force, thrust_across_flightpath, thrust_along_flightpath]
  try split_ifs
  all_goals (apply hasDerivAt_of_eq; on_goal 1 => (repeat' comp_step))
  all_goals try comp_side
  all_goals try split_ifs
  all_goals try (exfalso; linarith)
  all_goals try simp only [mul_zero, zero_mul, add_zero, zero_add, sub_zero, zero_sub, mul_one, one_mul]
  all_goals try push_cast
  all_goals comp_eq

theorem d_mission_velocity_rate__vehicle_lift (gravity takeoff_rolling_friction_coefficient
    vehicle_mass vehicle_propulsion_thrust_total vehicle_lift vehicle_drag
    mission_flight_path_angle wing_incidence vehicle_angle_of_attack : ℝ) (h0 : (vehicle_mass -
    vehicle_lift) - (vehicle_propulsion_thrust_total * (sin (((vehicle_angle_of_attack -
    wing_incidence) * π) / 180))) ≠ 0) (h1 : 0 < vehicle_mass) (h2 : (vehicle_mass - vehicle_lift)
    - (vehicle_propulsion_thrust_total * (sin (((vehicle_angle_of_attack - wing_incidence) * π) /
    180))) ≠ 0) :
    HasDerivAt (fun t => out_mission_velocity_rate gravity takeoff_rolling_friction_coefficient vehicle_mass vehicle_propulsion_thrust_total t vehicle_drag mission_flight_path_angle wing_incidence vehicle_angle_of_attack) (J_mission_velocity_rate__vehicle_lift gravity takeoff_rolling_friction_coefficient vehicle_mass vehicle_propulsion_thrust_total vehicle_lift wing_incidence vehicle_angle_of_attack) vehicle_lift := by
  simp only [out_mission_velocity_rate, J_mission_velocity_rate__vehicle_lift, dnf_dlift, normal_force1, normal_force_2, normal_force, thrust_across_flightpath, thrust_along_flightpath]
  try split_ifs
  all_goals (apply hasDerivAt_of_eq; on_goal 1 => (repeat' comp_step))
  all_goals try comp_side
  all_goals try split_ifs
  all_goals try (exfalso; linarith)
  all_goals try simp only [mul_zero, zero_mul, add_zero, zero_add, sub_zero, zero_sub, mul_one, one_mul]
  all_goals try push_cast
  all_goals comp_eq

theorem d_mission_velocity_rate__vehicle_drag (gravity takeoff_rolling_friction_coefficient
    vehicle_mass vehicle_propulsion_thrust_total vehicle_lift vehicle_drag
    mission_flight_path_angle wing_incidence vehicle_angle_of_attack : ℝ) (h0 : 0 < vehicle_mass)
    :
    HasDerivAt (fun t => out_mission_velocity_rate gravity takeoff_rolling_friction_coefficient vehicle_mass vehicle_propulsion_thrust_total vehicle_lift t mission_flight_path_angle wing_incidence vehicle_angle_of_attack) (J_mission_velocity_rate__vehicle_drag gravity vehicle_mass) vehicle_drag := by
  simp only [out_mission_velocity_rate, J_mission_velocity_rate__vehicle_drag, normal_force_2, normal_force, thrust_across_flightpath, thrust_along_flightpath]
  try split_ifs
  all_goals (apply hasDerivAt_of_eq; on_goal 1 => (repeat' comp_step))
  all_goals try comp_side
  all_goals try split_ifs
  all_goals try (exfalso; linarith)
  all_goals try simp only [mul_zero, zero_mul, add_zero, zero_add, sub_zero, zero_sub, mul_one, one_mul]
  all_goals try push_cast
  all_goals comp_eq

theorem d_mission_velocity_rate__mission_flight_path_angle (gravity
    takeoff_rolling_friction_coefficient vehicle_mass vehicle_propulsion_thrust_total vehicle_lift
    vehicle_drag mission_flight_path_angle wing_incidence vehicle_angle_of_attack : ℝ) (h0 : 0 <
    vehicle_mass) :
    HasDerivAt (fun t => out_mission_velocity_rate gravity takeoff_rolling_friction_coefficient vehicle_mass vehicle_propulsion_thrust_total vehicle_lift vehicle_drag t wing_incidence vehicle_angle_of_attack) (J_mission_velocity_rate__mission_flight_path_angle gravity mission_flight_path_angle) mission_flight_path_angle := by
  simp only [out_mission_velocity_rate, J_mission_velocity_rate__mission_flight_path_angle, normal_force_2, normal_force, thrust_across_flightpath, thrust_along_flightpath]
  try split_ifs
  all_goals (apply hasDerivAt_of_eq; on_goal 1 => (repeat' comp_step))
  all_goals try comp_side
  all_goals try split_ifs
  all_goals try (exfalso; linarith)
  all_goals try simp only [mul_zero, zero_mul, add_zero, zero_add, sub_zero, zero_sub, mul_one, one_mul]
  all_goals try push_cast
  all_goals comp_eq

theorem d_mission_velocity_rate__wing_incidence (gravity takeoff_rolling_friction_coefficient
    vehicle_mass vehicle_propulsion_thrust_total vehicle_lift vehicle_drag
    mission_flight_path_angle wing_incidence vehicle_angle_of_attack : ℝ) (h0 : (vehicle_mass -
    vehicle_lift) - (vehicle_propulsion_thrust_total * (sin (((vehicle_angle_of_attack -
    wing_incidence) * π) / 180))) ≠ 0) (h1 : 0 < vehicle_mass) (h2 : (vehicle_mass - vehicle_lift)
    - (vehicle_propulsion_thrust_total * (sin (((vehicle_angle_of_attack - wing_incidence) * π) /
    180))) ≠ 0) :
    HasDerivAt (fun t => out_mission_velocity_rate gravity takeoff_rolling_friction_coefficient vehicle_mass vehicle_propulsion_thrust_total vehicle_lift vehicle_drag mission_flight_path_angle t vehicle_angle_of_attack) (J_mission_velocity_rate__wing_incidence gravity takeoff_rolling_friction_coefficient vehicle_mass vehicle_propulsion_thrust_total vehicle_lift wing_incidence vehicle_angle_of_attack) wing_incidence := by
  simp only [out_mission_velocity_rate, J_mission_velocity_rate__wing_incidence, dnf_diwing_2, dnf_diwing, dtacf_diwing, normal_force1, dtalf_diwing, normal_force_2, normal_force, thrust_across_flightpath, thrust_along_flightpath]
  try split_ifs
  all_goals (apply hasDerivAt_of_eq; on_goal 1 => (repeat' comp_step))
  all_goals try comp_side
  all_goals try split_ifs
  all_goals try (exfalso; linarith)
  all_goals try simp only [mul_zero, zero_mul, add_zero, zero_add, sub_zero, zero_sub, mul_one, one_mul]
  all_goals try push_cast
  all_goals comp_eq

theorem d_mission_velocity_rate__vehicle_angle_of_attack (gravity
    takeoff_rolling_friction_coefficient vehicle_mass vehicle_propulsion_thrust_total vehicle_lift
    vehicle_drag mission_flight_path_angle wing_incidence vehicle_angle_of_attack : ℝ) (h0 :
    (vehicle_mass - vehicle_lift) - (vehicle_propulsion_thrust_total * (sin
    (((vehicle_angle_of_attack - wing_incidence) * π) / 180))) ≠ 0) (h1 : 0 < vehicle_mass) (h2 :
    (vehicle_mass - vehicle_lift) - (vehicle_propulsion_thrust_total * (sin
    (((vehicle_angle_of_attack - wing_incidence) * π) / 180))) ≠ 0) :
    HasDerivAt (fun t => out_mission_velocity_rate gravity takeoff_rolling_friction_coefficient vehicle_mass vehicle_propulsion_thrust_total vehicle_lift vehicle_drag mission_flight_path_angle wing_incidence t) (J_mission_velocity_rate__vehicle_angle_of_attack gravity takeoff_rolling_friction_coefficient vehicle_mass vehicle_propulsion_thrust_total vehicle_lift wing_incidence vehicle_angle_of_attack) vehicle_angle_of_attack := by
  simp only [out_mission_velocity_rate, J_mission_velocity_rate__vehicle_angle_of_attack, dnf_dalpha_2, dnf_dalpha, dtacf_dalpha, normal_force1, dtalf_dalpha, normal_force_2, normal_force, thrust_across_flightpath, thrust_along_flightpath]
  try split_ifs
  all_goals (apply hasDerivAt_of_eq; on_goal 1 => (repeat' comp_step))
  all_goals try comp_side
  all_goals try split_ifs
  all_goals try (exfalso; linarith)
  all_goals try simp only [mul_zero, zero_mul, add_zero, zero_add, sub_zero, zero_sub, mul_one, one_mul]
  all_goals try push_cast
  all_goals comp_eq

theorem d_mission_altitude_rate__mission_velocity (mission_velocity mission_flight_path_angle : ℝ)
    :
    HasDerivAt (fun t => out_mission_altitude_rate t mission_flight_path_angle) (J_mission_altitude_rate__mission_velocity mission_flight_path_angle) mission_velocity := by
  simp only [out_mission_altitude_rate, J_mission_altitude_rate__mission_velocity]
  (apply hasDerivAt_of_eq; on_goal 1 => (repeat' comp_step))
  all_goals try comp_side
  all_goals try simp only [mul_zero, zero_mul, add_zero, zero_add, sub_zero, zero_sub, mul_one, one_mul]
  all_goals try push_cast
  all_goals comp_eq

theorem d_mission_altitude_rate__mission_flight_path_angle (mission_velocity
    mission_flight_path_angle : ℝ)  :
    HasDerivAt (fun t => out_mission_altitude_rate mission_velocity t) (J_mission_altitude_rate__mission_flight_path_angle mission_velocity mission_flight_path_angle) mission_flight_path_angle := by
  simp only [out_mission_altitude_rate, J_mission_altitude_rate__mission_flight_path_angle]
  (apply hasDerivAt_of_eq; on_goal 1 => (repeat' comp_step))
  all_goals try comp_side
  all_goals try simp only [mul_zero, zero_mul, add_zero, zero_add, sub_zero, zero_sub, mul_one, one_mul]
  all_goals try push_cast
  all_goals comp_eq

theorem d_mission_distance_rate__mission_velocity (mission_velocity mission_flight_path_angle : ℝ)
    :
    HasDerivAt (fun t => out_mission_distance_rate t mission_flight_path_angle) (J_mission_distance_rate__mission_velocity mission_flight_path_angle) mission_velocity := by
  simp only [out_mission_distance_rate, J_mission_distance_rate__mission_velocity]
  (apply hasDerivAt_of_eq; on_goal 1 => (repeat' comp_step))
  all_goals try comp_side
  all_goals try simp only [mul_zero, zero_mul, add_zero, zero_add, sub_zero, zero_sub, mul_one, one_mul]
  all_goals try push_cast
  all_goals comp_eq

theorem d_mission_distance_rate__mission_flight_path_angle (mission_velocity
    mission_flight_path_angle : ℝ)  :
    HasDerivAt (fun t => out_mission_distance_rate mission_velocity t) (J_mission_distance_rate__mission_flight_path_angle mission_velocity mission_flight_path_angle) mission_flight_path_angle := by
  simp only [out_mission_distance_rate, J_mission_distance_rate__mission_flight_path_angle]
  (apply hasDerivAt_of_eq; on_goal 1 => (repeat' comp_step))
  all_goals try comp_side
  all_goals try simp only [mul_zero, zero_mul, add_zero, zero_add, sub_zero, zero_sub, mul_one, one_mul]
  all_goals try push_cast
  all_goals comp_eq

theorem d_normal_force__vehicle_mass (vehicle_mass vehicle_propulsion_thrust_total vehicle_lift
    wing_incidence vehicle_angle_of_attack : ℝ) (h0 : (vehicle_mass - vehicle_lift) -
    (vehicle_propulsion_thrust_total * (sin (((vehicle_angle_of_attack - wing_incidence) * π) /
    180))) ≠ 0) (h1 : (vehicle_mass - vehicle_lift) - (vehicle_propulsion_thrust_total * (sin
    (((vehicle_angle_of_attack - wing_incidence) * π) / 180))) ≠ 0) :
    HasDerivAt (fun t => out_normal_force t vehicle_propulsion_thrust_total vehicle_lift wing_incidence vehicle_angle_of_attack) (J_normal_force__vehicle_mass vehicle_mass vehicle_propulsion_thrust_total vehicle_lift wing_incidence vehicle_angle_of_attack) vehicle_mass := by
  simp only [out_normal_force, J_normal_force__vehicle_mass, dnf_dweight, normal_force1, normal_force_2, normal_force, thrust_across_flightpath]
  try split_ifs
  all_goals (apply hasDerivAt_of_eq; on_goal 1 => (repeat' comp_step))
  all_goals try comp_side
  all_goals try split_ifs
  all_goals try (exfalso; linarith)
  all_goals try simp only [mul_zero, zero_mul, add_zero, zero_add, sub_zero, zero_sub, mul_one, one_mul]
  all_goals try push_cast
  all_goals comp_eq

theorem d_normal_force__vehicle_propulsion_thrust_total (vehicle_mass
    vehicle_propulsion_thrust_total vehicle_lift wing_incidence vehicle_angle_of_attack : ℝ) (h0 :
    (vehicle_mass - vehicle_lift) - (vehicle_propulsion_thrust_total * (sin
    (((vehicle_angle_of_attack - wing_incidence) * π) / 180))) ≠ 0) (h1 : (vehicle_mass -
    vehicle_lift) - (vehicle_propulsion_thrust_total * (sin (((vehicle_angle_of_attack -
    wing_incidence) * π) / 180))) ≠ 0) :
    HasDerivAt (fun t => out_normal_force vehicle_mass t vehicle_lift wing_incidence vehicle_angle_of_attack) (J_normal_force__vehicle_propulsion_thrust_total vehicle_mass vehicle_propulsion_thrust_total vehicle_lift wing_incidence vehicle_angle_of_attack) vehicle_propulsion_thrust_total := by
  simp only [out_normal_force, J_normal_force__vehicle_propulsion_thrust_total, dnf_dthrust_2, dnf_dthrust, dtacf_dthrust, normal_force1, normal_force_2, normal_force, thrust_across_flightpath]
  try split_ifs
  all_goals (apply hasDerivAt_of_eq; on_goal 1 => (repeat' comp_step))
  all_goals try comp_side
  all_goals try split_ifs
  all_goals try (exfalso; linarith)
  all_goals try simp only [mul_zero, zero_mul, add_zero, zero_add, sub_zero, zero_sub, mul_one, one_mul]
  all_goals try push_cast
  all_goals comp_eq

theorem d_normal_force__vehicle_lift (vehicle_mass vehicle_propulsion_thrust_total vehicle_lift
    wing_incidence vehicle_angle_of_attack : ℝ) (h0 : (vehicle_mass - vehicle_lift) -
    (vehicle_propulsion_thrust_total * (sin (((vehicle_angle_of_attack - wing_incidence) * π) /
    180))) ≠ 0) (h1 : (vehicle_mass - vehicle_lift) - (vehicle_propulsion_thrust_total * (sin
    (((vehicle_angle_of_attack - wing_incidence) * π) / 180))) ≠ 0) :
    HasDerivAt (fun t => out_normal_force vehicle_mass vehicle_propulsion_thrust_total t wing_incidence vehicle_angle_of_attack) (J_normal_force__vehicle_lift vehicle_mass vehicle_propulsion_thrust_total vehicle_lift wing_incidence vehicle_angle_of_attack) vehicle_lift := by
  simp only [out_normal_force, J_normal_force__vehicle_lift, dnf_dlift, normal_force1, normal_force_2, normal_force, thrust_across_flightpath]
  try split_ifs
  all_goals (apply hasDerivAt_of_eq; on_goal 1 => (repeat' comp_step))
  all_goals try comp_side
  all_goals try split_ifs
  all_goals try (exfalso; linarith)
  all_goals try simp only [mul_zero, zero_mul, add_zero, zero_add, sub_zero, zero_sub, mul_one, one_mul]
  all_goals try push_cast
  all_goals comp_eq

theorem d_normal_force__wing_incidence (vehicle_mass vehicle_propulsion_thrust_total vehicle_lift
    wing_incidence vehicle_angle_of_attack : ℝ) (h0 : (vehicle_mass - vehicle_lift) -
    (vehicle_propulsion_thrust_total * (sin (((vehicle_angle_of_attack - wing_incidence) * π) /
    180))) ≠ 0) (h1 : (vehicle_mass - vehicle_lift) - (vehicle_propulsion_thrust_total * (sin
    (((vehicle_angle_of_attack - wing_incidence) * π) / 180))) ≠ 0) :
    HasDerivAt (fun t => out_normal_force vehicle_mass vehicle_propulsion_thrust_total vehicle_lift t vehicle_angle_of_attack) (J_normal_force__wing_incidence vehicle_mass vehicle_propulsion_thrust_total vehicle_lift wing_incidence vehicle_angle_of_attack) wing_incidence := by
  simp only [out_normal_force, J_normal_force__wing_incidence, dnf_diwing_2, dnf_diwing, dtacf_diwing, normal_force1, normal_force_2, normal_force, thrust_across_flightpath]
  try split_ifs
  all_goals (apply hasDerivAt_of_eq; on_goal 1 => (repeat' comp_step))
  all_goals try comp_side
  all_goals try split_ifs
  all_goals try (exfalso; linarith)
  all_goals try simp only [mul_zero, zero_mul, add_zero, zero_add, sub_zero, zero_sub, mul_one, one_mul]
  all_goals try push_cast
  all_goals comp_eq

theorem d_normal_force__vehicle_angle_of_attack (vehicle_mass vehicle_propulsion_thrust_total
    vehicle_lift wing_incidence vehicle_angle_of_attack : ℝ) (h0 : (vehicle_mass - vehicle_lift) -
    (vehicle_propulsion_thrust_total * (sin (((vehicle_angle_of_attack - wing_incidence) * π) /
    180))) ≠ 0) (h1 : (vehicle_mass - vehicle_lift) - (vehicle_propulsion_thrust_total * (sin
    (((vehicle_angle_of_attack - wing_incidence) * π) / 180))) ≠ 0) :
    HasDerivAt (fun t => out_normal_force vehicle_mass vehicle_propulsion_thrust_total vehicle_lift wing_incidence t) (J_normal_force__vehicle_angle_of_attack vehicle_mass vehicle_propulsion_thrust_total vehicle_lift wing_incidence vehicle_angle_of_attack) vehicle_angle_of_attack := by
  simp only [out_normal_force, J_normal_force__vehicle_angle_of_attack, dnf_dalpha_2, dnf_dalpha, dtacf_dalpha, normal_force1, normal_force_2, normal_force, thrust_across_flightpath]
  try split_ifs
  all_goals (apply hasDerivAt_of_eq; on_goal 1 => (repeat' comp_step))
  all_goals try comp_side
  all_goals try split_ifs
  all_goals try (exfalso; linarith)
  all_goals try simp only [mul_zero, zero_mul, add_zero, zero_add, sub_zero, zero_sub, mul_one, one_mul]
  all_goals try push_cast
  all_goals comp_eq

theorem d_fuselage_pitch__mission_flight_path_angle (mission_flight_path_angle wing_incidence
    vehicle_angle_of_attack : ℝ)  :
    HasDerivAt (fun t => out_fuselage_pitch t wing_incidence vehicle_angle_of_attack) (J_fuselage_pitch__mission_flight_path_angle) mission_flight_path_angle := by
  simp only [out_fuselage_pitch, J_fuselage_pitch__mission_flight_path_angle]
  (apply hasDerivAt_of_eq; on_goal 1 => (repeat' comp_step))
  all_goals try comp_side
  all_goals try simp only [mul_zero, zero_mul, add_zero, zero_add, sub_zero, zero_sub, mul_one, one_mul]
  all_goals try push_cast
  all_goals comp_eq

theorem d_fuselage_pitch__wing_incidence (mission_flight_path_angle wing_incidence
    vehicle_angle_of_attack : ℝ)  :
    HasDerivAt (fun t => out_fuselage_pitch mission_flight_path_angle t vehicle_angle_of_attack) (J_fuselage_pitch__wing_incidence) wing_incidence := by
  simp only [out_fuselage_pitch, J_fuselage_pitch__wing_incidence]
  (apply hasDerivAt_of_eq; on_goal 1 => (repeat' comp_step))
  all_goals try comp_side
  all_goals try simp only [mul_zero, zero_mul, add_zero, zero_add, sub_zero, zero_sub, mul_one, one_mul]
  all_goals try push_cast
  all_goals comp_eq

theorem d_fuselage_pitch__vehicle_angle_of_attack (mission_flight_path_angle wing_incidence
    vehicle_angle_of_attack : ℝ)  :
    HasDerivAt (fun t => out_fuselage_pitch mission_flight_path_angle wing_incidence t) (J_fuselage_pitch__vehicle_angle_of_attack) vehicle_angle_of_attack := by
  simp only [out_fuselage_pitch, J_fuselage_pitch__vehicle_angle_of_attack]
  (apply hasDerivAt_of_eq; on_goal 1 => (repeat' comp_step))
  all_goals try comp_side
  all_goals try simp only [mul_zero, zero_mul, add_zero, zero_add, sub_zero, zero_sub, mul_one, one_mul]
  all_goals try push_cast
  all_goals comp_eq

/-- Every partial derivative set by `GroundrollEOM` is the derivative of its output. -/
theorem partials (gravity takeoff_rolling_friction_coefficient vehicle_mass
    vehicle_propulsion_thrust_total vehicle_lift vehicle_drag mission_velocity
    mission_flight_path_angle wing_incidence vehicle_angle_of_attack : ℝ) (h0 : 0 < vehicle_mass)
    (h1 : (vehicle_mass - vehicle_lift) - (vehicle_propulsion_thrust_total * (sin
    (((vehicle_angle_of_attack - wing_incidence) * π) / 180))) ≠ 0) :
    HasDerivAt (fun t => out_mission_velocity_rate gravity t vehicle_mass
      vehicle_propulsion_thrust_total vehicle_lift vehicle_drag mission_flight_path_angle
      wing_incidence vehicle_angle_of_attack)
      (J_mission_velocity_rate__takeoff_rolling_friction_coefficient gravity vehicle_mass
      vehicle_propulsion_thrust_total vehicle_lift wing_incidence vehicle_angle_of_attack)
      takeoff_rolling_friction_coefficient ∧
    HasDerivAt (fun t => out_mission_velocity_rate gravity takeoff_rolling_friction_coefficient t
      vehicle_propulsion_thrust_total vehicle_lift vehicle_drag mission_flight_path_angle
      wing_incidence vehicle_angle_of_attack) (J_mission_velocity_rate__vehicle_mass gravity
      takeoff_rolling_friction_coefficient vehicle_mass vehicle_propulsion_thrust_total
      vehicle_lift vehicle_drag mission_flight_path_angle wing_incidence vehicle_angle_of_attack)
      vehicle_mass ∧
    HasDerivAt (fun t => out_mission_velocity_rate gravity takeoff_rolling_friction_coefficient
      vehicle_mass t vehicle_lift vehicle_drag mission_flight_path_angle wing_incidence
      vehicle_angle_of_attack) (J_mission_velocity_rate__vehicle_propulsion_thrust_total gravity
      takeoff_rolling_friction_coefficient vehicle_mass vehicle_propulsion_thrust_total
      vehicle_lift wing_incidence vehicle_angle_of_attack) vehicle_propulsion_thrust_total ∧
    HasDerivAt (fun t => out_mission_velocity_rate gravity takeoff_rolling_friction_coefficient
      vehicle_mass vehicle_propulsion_thrust_total t vehicle_drag mission_flight_path_angle
      wing_incidence vehicle_angle_of_attack) (J_mission_velocity_rate__vehicle_lift gravity
      takeoff_rolling_friction_coefficient vehicle_mass vehicle_propulsion_thrust_total
      vehicle_lift wing_incidence vehicle_angle_of_attack) vehicle_lift ∧
    HasDerivAt (fun t => out_mission_velocity_rate gravity takeoff_rolling_friction_coefficient
      vehicle_mass vehicle_propulsion_thrust_total vehicle_lift t mission_flight_path_angle
      wing_incidence vehicle_angle_of_attack) (J_mission_velocity_rate__vehicle_drag gravity
      vehicle_mass) vehicle_drag ∧
    HasDerivAt (fun t => out_mission_velocity_rate gravity takeoff_rolling_friction_coefficient
      vehicle_mass vehicle_propulsion_thrust_total vehicle_lift vehicle_drag t wing_incidence
      vehicle_angle_of_attack) (J_mission_velocity_rate__mission_flight_path_angle gravity
      mission_flight_path_angle) mission_flight_path_angle ∧
    HasDerivAt (fun t => out_mission_velocity_rate gravity takeoff_rolling_friction_coefficient
      vehicle_mass vehicle_propulsion_thrust_total vehicle_lift vehicle_drag
      mission_flight_path_angle t vehicle_angle_of_attack)
      (J_mission_velocity_rate__wing_incidence gravity takeoff_rolling_friction_coefficient
      vehicle_mass vehicle_propulsion_thrust_total vehicle_lift wing_incidence
      vehicle_angle_of_attack) wing_incidence ∧
    HasDerivAt (fun t => out_mission_velocity_rate gravity takeoff_rolling_friction_coefficient
      vehicle_mass vehicle_propulsion_thrust_total vehicle_lift vehicle_drag
      mission_flight_path_angle wing_incidence t)
      (J_mission_velocity_rate__vehicle_angle_of_attack gravity
      takeoff_rolling_friction_coefficient vehicle_mass vehicle_propulsion_thrust_total
      vehicle_lift wing_incidence vehicle_angle_of_attack) vehicle_angle_of_attack ∧
    HasDerivAt (fun t => out_mission_altitude_rate t mission_flight_path_angle)
      (J_mission_altitude_rate__mission_velocity mission_flight_path_angle) mission_velocity ∧
    HasDerivAt (fun t => out_mission_altitude_rate mission_velocity t)
      (J_mission_altitude_rate__mission_flight_path_angle mission_velocity
      mission_flight_path_angle) mission_flight_path_angle ∧
    HasDerivAt (fun t => out_mission_distance_rate t mission_flight_path_angle)
      (J_mission_distance_rate__mission_velocity mission_flight_path_angle) mission_velocity ∧
    HasDerivAt (fun t => out_mission_distance_rate mission_velocity t)
      (J_mission_distance_rate__mission_flight_path_angle mission_velocity
      mission_flight_path_angle) mission_flight_path_angle ∧
    HasDerivAt (fun t => out_normal_force t vehicle_propulsion_thrust_total vehicle_lift
      wing_incidence vehicle_angle_of_attack) (J_normal_force__vehicle_mass vehicle_mass
      vehicle_propulsion_thrust_total vehicle_lift wing_incidence vehicle_angle_of_attack)
      vehicle_mass ∧
    HasDerivAt (fun t => out_normal_force vehicle_mass t vehicle_lift wing_incidence
      vehicle_angle_of_attack) (J_normal_force__vehicle_propulsion_thrust_total vehicle_mass
      vehicle_propulsion_thrust_total vehicle_lift wing_incidence vehicle_angle_of_attack)
      vehicle_propulsion_thrust_total ∧
    HasDerivAt (fun t => out_normal_force vehicle_mass vehicle_propulsion_thrust_total t
      wing_incidence vehicle_angle_of_attack) (J_normal_force__vehicle_lift vehicle_mass
      vehicle_propulsion_thrust_total vehicle_lift wing_incidence vehicle_angle_of_attack)
      vehicle_lift ∧
    HasDerivAt (fun t => out_normal_force vehicle_mass vehicle_propulsion_thrust_total vehicle_lift t
      vehicle_angle_of_attack) (J_normal_force__wing_incidence vehicle_mass
      vehicle_propulsion_thrust_total vehicle_lift wing_incidence vehicle_angle_of_attack)
      wing_incidence ∧
    HasDerivAt (fun t => out_normal_force vehicle_mass vehicle_propulsion_thrust_total vehicle_lift
      wing_incidence t) (J_normal_force__vehicle_angle_of_attack vehicle_mass
      vehicle_propulsion_thrust_total vehicle_lift wing_incidence vehicle_angle_of_attack)
      vehicle_angle_of_attack ∧
    HasDerivAt (fun t => out_fuselage_pitch t wing_incidence vehicle_angle_of_attack)
      (J_fuselage_pitch__mission_flight_path_angle) mission_flight_path_angle ∧
    HasDerivAt (fun t => out_fuselage_pitch mission_flight_path_angle t vehicle_angle_of_attack)
      (J_fuselage_pitch__wing_incidence) wing_incidence ∧
    HasDerivAt (fun t => out_fuselage_pitch mission_flight_path_angle wing_incidence t)
      (J_fuselage_pitch__vehicle_angle_of_attack) vehicle_angle_of_attack :=
  ⟨d_mission_velocity_rate__takeoff_rolling_friction_coefficient _ _ _ _ _ _ _ _ _ h0,
    d_mission_velocity_rate__vehicle_mass _ _ _ _ _ _ _ _ _ h1 h0 h1,
    d_mission_velocity_rate__vehicle_propulsion_thrust_total _ _ _ _ _ _ _ _ _ h1 h0 h1,
    d_mission_velocity_rate__vehicle_lift _ _ _ _ _ _ _ _ _ h1 h0 h1,
    d_mission_velocity_rate__vehicle_drag _ _ _ _ _ _ _ _ _ h0,
    d_mission_velocity_rate__mission_flight_path_angle _ _ _ _ _ _ _ _ _ h0,
    d_mission_velocity_rate__wing_incidence _ _ _ _ _ _ _ _ _ h1 h0 h1,
    d_mission_velocity_rate__vehicle_angle_of_attack _ _ _ _ _ _ _ _ _ h1 h0 h1,
    d_mission_altitude_rate__mission_velocity _ _,
    d_mission_altitude_rate__mission_flight_path_angle _ _,
    d_mission_distance_rate__mission_velocity _ _,
    d_mission_distance_rate__mission_flight_path_angle _ _, d_normal_force__vehicle_mass _ _ _ _ _
    h1 h1, d_normal_force__vehicle_propulsion_thrust_total _ _ _ _ _ h1 h1,
    d_normal_force__vehicle_lift _ _ _ _ _ h1 h1, d_normal_force__wing_incidence _ _ _ _ _ h1 h1,
    d_normal_force__vehicle_angle_of_attack _ _ _ _ _ h1 h1,
    d_fuselage_pitch__mission_flight_path_angle _ _ _, d_fuselage_pitch__wing_incidence _ _ _,
    d_fuselage_pitch__vehicle_angle_of_attack _ _ _⟩

example : ∃ gravity takeoff_rolling_friction_coefficient vehicle_mass
      vehicle_propulsion_thrust_total vehicle_lift vehicle_drag mission_velocity
      mission_flight_path_angle wing_incidence vehicle_angle_of_attack : ℝ,
      0 < vehicle_mass ∧
      (vehicle_mass - vehicle_lift) - (vehicle_propulsion_thrust_total * (sin (((vehicle_angle_of_attack
        - wing_incidence) * π) / 180))) ≠ 0 :=
  ⟨0, 0, 1, 0, 0, 0, 0, 0, 0, 0, by comp_example, by comp_example⟩

end Verif.Comp.MissionSolvedTwoDofOdeGroundrollEom.GroundrollEOM

