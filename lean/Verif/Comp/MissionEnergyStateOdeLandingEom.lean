import Verif.Lemmas.CompDeriv

/-! # Partial derivatives of the components of `aviary/mission/energy_state/ode/landing_eom.py`

One node of a vector component is modelled over the real numbers.  Each option that selects a
branch is fixed, one namespace per choice.  `out_x` is the output `x`, `J_x__y` the entry that
`compute_partials` (or `declare_partials` with `val`) assigns, `d_x__y` the proof that the entry is
the derivative.  Inputs an output does not take as argument have no influence on it. -/

set_option linter.all false

namespace Verif.Comp.MissionEnergyStateOdeLandingEom.FlareSumForces
open Real

/-- aviary/mission/energy_state/ode/landing_eom.py:346 -/
noncomputable def gamma (mission_flight_path_angle : ℝ) : ℝ := -mission_flight_path_angle

/-- aviary/mission/energy_state/ode/landing_eom.py:348 -/
noncomputable def weight (gravity vehicle_mass : ℝ) : ℝ := vehicle_mass * gravity

/-- aviary/mission/energy_state/ode/landing_eom.py:350 -/
noncomputable def angle (takeoff_angle_of_attack_runway takeoff_thrust_incidence vehicle_angle_of_attack mission_flight_path_angle : ℝ) : ℝ :=
  ((vehicle_angle_of_attack - takeoff_angle_of_attack_runway) + takeoff_thrust_incidence) -
    (gamma mission_flight_path_angle)

/-- aviary/mission/energy_state/ode/landing_eom.py:352 -/
noncomputable def c_angle (takeoff_angle_of_attack_runway takeoff_thrust_incidence vehicle_angle_of_attack mission_flight_path_angle : ℝ) : ℝ :=
  cos (angle takeoff_angle_of_attack_runway takeoff_thrust_incidence vehicle_angle_of_attack
    mission_flight_path_angle)

/-- aviary/mission/energy_state/ode/landing_eom.py:353 -/
noncomputable def s_angle (takeoff_angle_of_attack_runway takeoff_thrust_incidence vehicle_angle_of_attack mission_flight_path_angle : ℝ) : ℝ :=
  sin (angle takeoff_angle_of_attack_runway takeoff_thrust_incidence vehicle_angle_of_attack
    mission_flight_path_angle)

/-- aviary/mission/energy_state/ode/landing_eom.py:355 -/
noncomputable def c_gamma (mission_flight_path_angle : ℝ) : ℝ :=
  cos (gamma mission_flight_path_angle)

/-- aviary/mission/energy_state/ode/landing_eom.py:356 -/
noncomputable def s_gamma (mission_flight_path_angle : ℝ) : ℝ :=
  sin (gamma mission_flight_path_angle)

/-- aviary/mission/energy_state/ode/landing_eom.py:361 -/
noncomputable def f_h (takeoff_angle_of_attack_runway takeoff_thrust_incidence vehicle_lift vehicle_propulsion_thrust_total vehicle_drag vehicle_angle_of_attack mission_flight_path_angle : ℝ) : ℝ :=
  ((vehicle_drag * (c_gamma mission_flight_path_angle)) - (vehicle_lift * (s_gamma
    mission_flight_path_angle))) - (vehicle_propulsion_thrust_total * (c_angle
    takeoff_angle_of_attack_runway takeoff_thrust_incidence vehicle_angle_of_attack
    mission_flight_path_angle))

/-- aviary/mission/energy_state/ode/landing_eom.py:364 -/
noncomputable def f_v (gravity takeoff_angle_of_attack_runway takeoff_thrust_incidence vehicle_mass vehicle_lift vehicle_propulsion_thrust_total vehicle_drag vehicle_angle_of_attack mission_flight_path_angle : ℝ) : ℝ :=
  (((vehicle_lift * (c_gamma mission_flight_path_angle)) + (vehicle_drag * (s_gamma
    mission_flight_path_angle))) - (weight gravity vehicle_mass)) +
    (vehicle_propulsion_thrust_total * (s_angle takeoff_angle_of_attack_runway
    takeoff_thrust_incidence vehicle_angle_of_attack mission_flight_path_angle))

/-- aviary/mission/energy_state/ode/landing_eom.py:404 -/
noncomputable def f_h_2 (takeoff_angle_of_attack_runway takeoff_thrust_incidence vehicle_lift vehicle_propulsion_thrust_total vehicle_drag vehicle_angle_of_attack mission_flight_path_angle : ℝ) : ℝ :=
  (((-vehicle_drag) * (s_gamma mission_flight_path_angle)) - (vehicle_lift * (c_gamma
    mission_flight_path_angle))) - (vehicle_propulsion_thrust_total * (s_angle
    takeoff_angle_of_attack_runway takeoff_thrust_incidence vehicle_angle_of_attack
    mission_flight_path_angle))

/-- aviary/mission/energy_state/ode/landing_eom.py:407 -/
noncomputable def f_v_2 (takeoff_angle_of_attack_runway takeoff_thrust_incidence vehicle_lift vehicle_propulsion_thrust_total vehicle_drag vehicle_angle_of_attack mission_flight_path_angle : ℝ) : ℝ :=
  (((-vehicle_lift) * (s_gamma mission_flight_path_angle)) + (vehicle_drag * (c_gamma
    mission_flight_path_angle))) - (vehicle_propulsion_thrust_total * (c_angle
    takeoff_angle_of_attack_runway takeoff_thrust_incidence vehicle_angle_of_attack
    mission_flight_path_angle))

/-- Output `forces_horizontal` of `FlareSumForces.compute`, aviary/mission/energy_state/ode/landing_eom.py:362 -/
noncomputable def out_forces_horizontal (takeoff_angle_of_attack_runway takeoff_thrust_incidence vehicle_lift vehicle_propulsion_thrust_total vehicle_drag vehicle_angle_of_attack mission_flight_path_angle : ℝ) : ℝ :=
  f_h takeoff_angle_of_attack_runway takeoff_thrust_incidence vehicle_lift
    vehicle_propulsion_thrust_total vehicle_drag vehicle_angle_of_attack
    mission_flight_path_angle

/-- Output `forces_vertical` of `FlareSumForces.compute`, aviary/mission/energy_state/ode/landing_eom.py:365 -/
noncomputable def out_forces_vertical (gravity takeoff_angle_of_attack_runway takeoff_thrust_incidence vehicle_mass vehicle_lift vehicle_propulsion_thrust_total vehicle_drag vehicle_angle_of_attack mission_flight_path_angle : ℝ) : ℝ :=
  f_v gravity takeoff_angle_of_attack_runway takeoff_thrust_incidence vehicle_mass vehicle_lift
    vehicle_propulsion_thrust_total vehicle_drag vehicle_angle_of_attack
    mission_flight_path_angle

/-- Partial of `forces_vertical` with respect to `vehicle_mass` as set by `FlareSumForces`, aviary/mission/energy_state/ode/landing_eom.py:314 -/
noncomputable def J_forces_vertical__vehicle_mass (gravity : ℝ) : ℝ := -gravity

/-- Partial of `forces_horizontal` with respect to `vehicle_lift` as set by `FlareSumForces`, aviary/mission/energy_state/ode/landing_eom.py:390 -/
noncomputable def J_forces_horizontal__vehicle_lift (mission_flight_path_angle : ℝ) : ℝ :=
  -(s_gamma mission_flight_path_angle)

/-- Partial of `forces_vertical` with respect to `vehicle_lift` as set by `FlareSumForces`, aviary/mission/energy_state/ode/landing_eom.py:393 -/
noncomputable def J_forces_vertical__vehicle_lift (mission_flight_path_angle : ℝ) : ℝ :=
  c_gamma mission_flight_path_angle

/-- Partial of `forces_horizontal` with respect to `vehicle_propulsion_thrust_total` as set by `FlareSumForces`, aviary/mission/energy_state/ode/landing_eom.py:395 -/
noncomputable def J_forces_horizontal__vehicle_propulsion_thrust_total (takeoff_angle_of_attack_runway takeoff_thrust_incidence vehicle_angle_of_attack mission_flight_path_angle : ℝ) : ℝ :=
  -(c_angle takeoff_angle_of_attack_runway takeoff_thrust_incidence vehicle_angle_of_attack
    mission_flight_path_angle)

/-- Partial of `forces_vertical` with respect to `vehicle_propulsion_thrust_total` as set by `FlareSumForces`, aviary/mission/energy_state/ode/landing_eom.py:396 -/
noncomputable def J_forces_vertical__vehicle_propulsion_thrust_total (takeoff_angle_of_attack_runway takeoff_thrust_incidence vehicle_angle_of_attack mission_flight_path_angle : ℝ) : ℝ :=
  s_angle takeoff_angle_of_attack_runway takeoff_thrust_incidence vehicle_angle_of_attack
    mission_flight_path_angle

/-- Partial of `forces_horizontal` with respect to `vehicle_drag` as set by `FlareSumForces`, aviary/mission/energy_state/ode/landing_eom.py:398 -/
noncomputable def J_forces_horizontal__vehicle_drag (mission_flight_path_angle : ℝ) : ℝ :=
  c_gamma mission_flight_path_angle

/-- Partial of `forces_vertical` with respect to `vehicle_drag` as set by `FlareSumForces`, aviary/mission/energy_state/ode/landing_eom.py:399 -/
noncomputable def J_forces_vertical__vehicle_drag (mission_flight_path_angle : ℝ) : ℝ :=
  s_gamma mission_flight_path_angle

/-- Partial of `forces_horizontal` with respect to `vehicle_angle_of_attack` as set by `FlareSumForces`, aviary/mission/energy_state/ode/landing_eom.py:401 -/
noncomputable def J_forces_horizontal__vehicle_angle_of_attack (takeoff_angle_of_attack_runway takeoff_thrust_incidence vehicle_propulsion_thrust_total vehicle_angle_of_attack mission_flight_path_angle : ℝ) : ℝ :=
  vehicle_propulsion_thrust_total * (s_angle takeoff_angle_of_attack_runway
    takeoff_thrust_incidence vehicle_angle_of_attack mission_flight_path_angle)

/-- Partial of `forces_vertical` with respect to `vehicle_angle_of_attack` as set by `FlareSumForces`, aviary/mission/energy_state/ode/landing_eom.py:402 -/
noncomputable def J_forces_vertical__vehicle_angle_of_attack (takeoff_angle_of_attack_runway takeoff_thrust_incidence vehicle_propulsion_thrust_total vehicle_angle_of_attack mission_flight_path_angle : ℝ) : ℝ :=
  vehicle_propulsion_thrust_total * (c_angle takeoff_angle_of_attack_runway
    takeoff_thrust_incidence vehicle_angle_of_attack mission_flight_path_angle)

/-- Partial of `forces_horizontal` with respect to `mission_flight_path_angle` as set by `FlareSumForces`, aviary/mission/energy_state/ode/landing_eom.py:405 -/
noncomputable def J_forces_horizontal__mission_flight_path_angle (takeoff_angle_of_attack_runway takeoff_thrust_incidence vehicle_lift vehicle_propulsion_thrust_total vehicle_drag vehicle_angle_of_attack mission_flight_path_angle : ℝ) : ℝ :=
  -(f_h_2 takeoff_angle_of_attack_runway takeoff_thrust_incidence vehicle_lift
    vehicle_propulsion_thrust_total vehicle_drag vehicle_angle_of_attack
    mission_flight_path_angle)

/-- Partial of `forces_vertical` with respect to `mission_flight_path_angle` as set by `FlareSumForces`, aviary/mission/energy_state/ode/landing_eom.py:408 -/
noncomputable def J_forces_vertical__mission_flight_path_angle (takeoff_angle_of_attack_runway takeoff_thrust_incidence vehicle_lift vehicle_propulsion_thrust_total vehicle_drag vehicle_angle_of_attack mission_flight_path_angle : ℝ) : ℝ :=
  -(f_v_2 takeoff_angle_of_attack_runway takeoff_thrust_incidence vehicle_lift
    vehicle_propulsion_thrust_total vehicle_drag vehicle_angle_of_attack
    mission_flight_path_angle)

theorem d_forces_horizontal__vehicle_lift (takeoff_angle_of_attack_runway takeoff_thrust_incidence
    vehicle_lift vehicle_propulsion_thrust_total vehicle_drag vehicle_angle_of_attack
    mission_flight_path_angle : ℝ)  :
    HasDerivAt (fun t => out_forces_horizontal takeoff_angle_of_attack_runway takeoff_thrust_incidence t vehicle_propulsion_thrust_total vehicle_drag vehicle_angle_of_attack mission_flight_path_angle) (J_forces_horizontal__vehicle_lift mission_flight_path_angle) vehicle_lift := by
  simp only [out_forces_horizontal, J_forces_horizontal__vehicle_lift, f_h, c_angle, angle, s_gamma, c_gamma, gamma]
  (apply hasDerivAt_of_eq; on_goal 1 => (repeat' comp_step))
  all_goals try comp_side
  all_goals try simp only [mul_zero, zero_mul, add_zero, zero_add, sub_zero, zero_sub, mul_one, one_mul]
  all_goals try push_cast
  all_goals comp_eq

theorem d_forces_horizontal__vehicle_propulsion_thrust_total (takeoff_angle_of_attack_runway
    takeoff_thrust_incidence vehicle_lift vehicle_propulsion_thrust_total vehicle_drag
    vehicle_angle_of_attack mission_flight_path_angle : ℝ)  :
    HasDerivAt (fun t => out_forces_horizontal takeoff_angle_of_attack_runway takeoff_thrust_incidence vehicle_lift t vehicle_drag vehicle_angle_of_attack mission_flight_path_angle) (J_forces_horizontal__vehicle_propulsion_thrust_total takeoff_angle_of_attack_runway takeoff_thrust_incidence vehicle_angle_of_attack mission_flight_path_angle) vehicle_propulsion_thrust_total := by
  simp only [out_forces_horizontal, J_forces_horizontal__vehicle_propulsion_thrust_total, f_h, c_angle, angle, s_gamma, c_gamma, gamma]
  (apply hasDerivAt_of_eq; on_goal 1 => (repeat' comp_step))
  all_goals try comp_side
  all_goals try simp only [mul_zero, zero_mul, add_zero, zero_add, sub_zero, zero_sub, mul_one, one_mul]
  all_goals try push_cast
  all_goals comp_eq

theorem d_forces_horizontal__vehicle_drag (takeoff_angle_of_attack_runway takeoff_thrust_incidence
    vehicle_lift vehicle_propulsion_thrust_total vehicle_drag vehicle_angle_of_attack
    mission_flight_path_angle : ℝ)  :
    HasDerivAt (fun t => out_forces_horizontal takeoff_angle_of_attack_runway takeoff_thrust_incidence vehicle_lift vehicle_propulsion_thrust_total t vehicle_angle_of_attack mission_flight_path_angle) (J_forces_horizontal__vehicle_drag mission_flight_path_angle) vehicle_drag := by
  simp only [out_forces_horizontal, J_forces_horizontal__vehicle_drag, f_h, c_angle, angle, s_gamma, c_gamma, gamma]
  (apply hasDerivAt_of_eq; on_goal 1 => (repeat' comp_step))
  all_goals try comp_side
  all_goals try simp only [mul_zero, zero_mul, add_zero, zero_add, sub_zero, zero_sub, mul_one, one_mul]
  all_goals try push_cast
  all_goals comp_eq

theorem d_forces_horizontal__vehicle_angle_of_attack (takeoff_angle_of_attack_runway
    takeoff_thrust_incidence vehicle_lift vehicle_propulsion_thrust_total vehicle_drag
    vehicle_angle_of_attack mission_flight_path_angle : ℝ)  :
    HasDerivAt (fun t => out_forces_horizontal takeoff_angle_of_attack_runway takeoff_thrust_incidence vehicle_lift vehicle_propulsion_thrust_total vehicle_drag t mission_flight_path_angle) (J_forces_horizontal__vehicle_angle_of_attack takeoff_angle_of_attack_runway takeoff_thrust_incidence vehicle_propulsion_thrust_total vehicle_angle_of_attack mission_flight_path_angle) vehicle_angle_of_attack := by
  simp only [out_forces_horizontal, J_forces_horizontal__vehicle_angle_of_attack, s_angle, f_h, c_angle, angle, s_gamma, c_gamma, gamma]
  (apply hasDerivAt_of_eq; on_goal 1 => (repeat' comp_step))
  all_goals try comp_side
  all_goals try simp only [mul_zero, zero_mul, add_zero, zero_add, sub_zero, zero_sub, mul_one, one_mul]
  all_goals try push_cast
  all_goals comp_eq

theorem d_forces_horizontal__mission_flight_path_angle (takeoff_angle_of_attack_runway
    takeoff_thrust_incidence vehicle_lift vehicle_propulsion_thrust_total vehicle_drag
    vehicle_angle_of_attack mission_flight_path_angle : ℝ)  :
    HasDerivAt (fun t => out_forces_horizontal takeoff_angle_of_attack_runway takeoff_thrust_incidence vehicle_lift vehicle_propulsion_thrust_total vehicle_drag vehicle_angle_of_attack t) (J_forces_horizontal__mission_flight_path_angle takeoff_angle_of_attack_runway takeoff_thrust_incidence vehicle_lift vehicle_propulsion_thrust_total vehicle_drag vehicle_angle_of_attack mission_flight_path_angle) mission_flight_path_angle := by
  simp only [out_forces_horizontal, J_forces_horizontal__mission_flight_path_angle, f_h_2, s_angle, f_h, c_angle, angle, s_gamma, c_gamma, gamma]
  (apply hasDerivAt_of_eq; on_goal 1 => (repeat' comp_step))
  all_goals try comp_side
  all_goals try simp only [mul_zero, zero_mul, add_zero, zero_add, sub_zero, zero_sub, mul_one, one_mul]
  all_goals try push_cast
  all_goals comp_eq

theorem d_forces_vertical__vehicle_mass (gravity takeoff_angle_of_attack_runway
    takeoff_thrust_incidence vehicle_mass vehicle_lift vehicle_propulsion_thrust_total
    vehicle_drag vehicle_angle_of_attack mission_flight_path_angle : ℝ)  :
    HasDerivAt (fun t => out_forces_vertical gravity takeoff_angle_of_attack_runway takeoff_thrust_incidence t vehicle_lift vehicle_propulsion_thrust_total vehicle_drag vehicle_angle_of_attack mission_flight_path_angle) (J_forces_vertical__vehicle_mass gravity) vehicle_mass := by
  simp only [out_forces_vertical, J_forces_vertical__vehicle_mass, f_v, s_angle, angle, weight, s_gamma, c_gamma, gamma]
  (apply hasDerivAt_of_eq; on_goal 1 => (repeat' comp_step))
  all_goals try comp_side
  all_goals try simp only [mul_zero, zero_mul, add_zero, zero_add, sub_zero, zero_sub, mul_one, one_mul]
  all_goals try push_cast
  all_goals comp_eq

theorem d_forces_vertical__vehicle_lift (gravity takeoff_angle_of_attack_runway
    takeoff_thrust_incidence vehicle_mass vehicle_lift vehicle_propulsion_thrust_total
    vehicle_drag vehicle_angle_of_attack mission_flight_path_angle : ℝ)  :
    HasDerivAt (fun t => out_forces_vertical gravity takeoff_angle_of_attack_runway takeoff_thrust_incidence vehicle_mass t vehicle_propulsion_thrust_total vehicle_drag vehicle_angle_of_attack mission_flight_path_angle) (J_forces_vertical__vehicle_lift mission_flight_path_angle) vehicle_lift := by
  simp only [out_forces_vertical, J_forces_vertical__vehicle_lift, f_v, s_angle, angle, weight, s_gamma, c_gamma, gamma]
  (apply hasDerivAt_of_eq; on_goal 1 => (repeat' comp_step))
  all_goals try comp_side
  all_goals try simp only [mul_zero, zero_mul, add_zero, zero_add, sub_zero, zero_sub, mul_one, one_mul]
  all_goals try push_cast
  all_goals comp_eq

theorem d_forces_vertical__vehicle_propulsion_thrust_total (gravity takeoff_angle_of_attack_runway
    takeoff_thrust_incidence vehicle_mass vehicle_lift vehicle_propulsion_thrust_total
    vehicle_drag vehicle_angle_of_attack mission_flight_path_angle : ℝ)  :
    HasDerivAt (fun t => out_forces_vertical gravity takeoff_angle_of_attack_runway takeoff_thrust_incidence vehicle_mass vehicle_lift t vehicle_drag vehicle_angle_of_attack mission_flight_path_angle) (J_forces_vertical__vehicle_propulsion_thrust_total takeoff_angle_of_attack_runway takeoff_thrust_incidence vehicle_angle_of_attack mission_flight_path_angle) vehicle_propulsion_thrust_total := by
  simp only [out_forces_vertical, J_forces_vertical__vehicle_propulsion_thrust_total, f_v, s_angle, angle, weight, s_gamma, c_gamma, gamma]
  (apply hasDerivAt_of_eq; on_goal 1 => (repeat' comp_step))
  all_goals try comp_side
  all_goals try simp only [mul_zero, zero_mul, add_zero, zero_add, sub_zero, zero_sub, mul_one, one_mul]
  all_goals try push_cast
  all_goals comp_eq

theorem d_forces_vertical__vehicle_drag (gravity takeoff_angle_of_attack_runway
    takeoff_thrust_incidence vehicle_mass vehicle_lift vehicle_propulsion_thrust_total
    vehicle_drag vehicle_angle_of_attack mission_flight_path_angle : ℝ)  :
    HasDerivAt (fun t => out_forces_vertical gravity takeoff_angle_of_attack_runway takeoff_thrust_incidence vehicle_mass vehicle_lift vehicle_propulsion_thrust_total t vehicle_angle_of_attack mission_flight_path_angle) (J_forces_vertical__vehicle_drag mission_flight_path_angle) vehicle_drag := by
  simp only [out_forces_vertical, J_forces_vertical__vehicle_drag, f_v, s_angle, angle, weight, s_gamma, c_gamma, gamma]
  (apply hasDerivAt_of_eq; on_goal 1 => (repeat' comp_step))
  all_goals try comp_side
  all_goals try simp only [mul_zero, zero_mul, add_zero, zero_add, sub_zero, zero_sub, mul_one, one_mul]
  all_goals try push_cast
  all_goals comp_eq

theorem d_forces_vertical__vehicle_angle_of_attack (gravity takeoff_angle_of_attack_runway
    takeoff_thrust_incidence vehicle_mass vehicle_lift vehicle_propulsion_thrust_total
    vehicle_drag vehicle_angle_of_attack mission_flight_path_angle : ℝ)  :
    HasDerivAt (fun t => out_forces_vertical gravity takeoff_angle_of_attack_runway takeoff_thrust_incidence vehicle_mass vehicle_lift vehicle_propulsion_thrust_total vehicle_drag t mission_flight_path_angle) (J_forces_vertical__vehicle_angle_of_attack takeoff_angle_of_attack_runway takeoff_thrust_incidence vehicle_propulsion_thrust_total vehicle_angle_of_attack mission_flight_path_angle) vehicle_angle_of_attack := by
  simp only [out_forces_vertical, J_forces_vertical__vehicle_angle_of_attack, c_angle, f_v, s_angle, angle, weight, s_gamma, c_gamma, gamma]
  (apply hasDerivAt_of_eq; on_goal 1 => (repeat' comp_step))
  all_goals try comp_side
  all_goals try simp only [mul_zero, zero_mul, add_zero, zero_add, sub_zero, zero_sub, mul_one, one_mul]
  all_goals try push_cast
  all_goals comp_eq

theorem d_forces_vertical__mission_flight_path_angle (gravity takeoff_angle_of_attack_runway
    takeoff_thrust_incidence vehicle_mass vehicle_lift vehicle_propulsion_thrust_total
    vehicle_drag vehicle_angle_of_attack mission_flight_path_angle : ℝ)  :
    HasDerivAt (fun t => out_forces_vertical gravity takeoff_angle_of_attack_runway takeoff_thrust_incidence vehicle_mass vehicle_lift vehicle_propulsion_thrust_total vehicle_drag vehicle_angle_of_attack t) (J_forces_vertical__mission_flight_path_angle takeoff_angle_of_attack_runway takeoff_thrust_incidence vehicle_lift vehicle_propulsion_thrust_total vehicle_drag vehicle_angle_of_attack mission_flight_path_angle) mission_flight_path_angle := by
  simp only [out_forces_vertical, J_forces_vertical__mission_flight_path_angle, f_v_2, c_angle, f_v, s_angle, angle, weight, s_gamma, c_gamma, gamma]
  (apply hasDerivAt_of_eq; on_goal 1 => (repeat' comp_step))
  all_goals try comp_side
  all_goals try simp only [mul_zero, zero_mul, add_zero, zero_add, sub_zero, zero_sub, mul_one, one_mul]
  all_goals try push_cast
  all_goals comp_eq

/-- Every partial derivative set by `FlareSumForces` is the derivative of its output. -/
theorem partials (gravity takeoff_angle_of_attack_runway takeoff_thrust_incidence vehicle_mass
    vehicle_lift vehicle_propulsion_thrust_total vehicle_drag vehicle_angle_of_attack
    mission_flight_path_angle : ℝ) :
    HasDerivAt (fun t => out_forces_horizontal takeoff_angle_of_attack_runway takeoff_thrust_incidence
      t vehicle_propulsion_thrust_total vehicle_drag vehicle_angle_of_attack
      mission_flight_path_angle) (J_forces_horizontal__vehicle_lift mission_flight_path_angle)
      vehicle_lift ∧
    HasDerivAt (fun t => out_forces_horizontal takeoff_angle_of_attack_runway takeoff_thrust_incidence
      vehicle_lift t vehicle_drag vehicle_angle_of_attack mission_flight_path_angle)
      (J_forces_horizontal__vehicle_propulsion_thrust_total takeoff_angle_of_attack_runway
      takeoff_thrust_incidence vehicle_angle_of_attack mission_flight_path_angle)
      vehicle_propulsion_thrust_total ∧
    HasDerivAt (fun t => out_forces_horizontal takeoff_angle_of_attack_runway takeoff_thrust_incidence
      vehicle_lift vehicle_propulsion_thrust_total t vehicle_angle_of_attack
      mission_flight_path_angle) (J_forces_horizontal__vehicle_drag mission_flight_path_angle)
      vehicle_drag ∧
    HasDerivAt (fun t => out_forces_horizontal takeoff_angle_of_attack_runway takeoff_thrust_incidence
      vehicle_lift vehicle_propulsion_thrust_total vehicle_drag t mission_flight_path_angle)
      (J_forces_horizontal__vehicle_angle_of_attack takeoff_angle_of_attack_runway
      takeoff_thrust_incidence vehicle_propulsion_thrust_total vehicle_angle_of_attack
      mission_flight_path_angle) vehicle_angle_of_attack ∧
    HasDerivAt (fun t => out_forces_horizontal takeoff_angle_of_attack_runway takeoff_thrust_incidence
      vehicle_lift vehicle_propulsion_thrust_total vehicle_drag vehicle_angle_of_attack t)
      (J_forces_horizontal__mission_flight_path_angle takeoff_angle_of_attack_runway
      takeoff_thrust_incidence vehicle_lift vehicle_propulsion_thrust_total vehicle_drag
      vehicle_angle_of_attack mission_flight_path_angle) mission_flight_path_angle ∧
    HasDerivAt (fun t => out_forces_vertical gravity takeoff_angle_of_attack_runway
      takeoff_thrust_incidence t vehicle_lift vehicle_propulsion_thrust_total vehicle_drag
      vehicle_angle_of_attack mission_flight_path_angle) (J_forces_vertical__vehicle_mass gravity)
      vehicle_mass ∧
    HasDerivAt (fun t => out_forces_vertical gravity takeoff_angle_of_attack_runway
      takeoff_thrust_incidence vehicle_mass t vehicle_propulsion_thrust_total vehicle_drag
      vehicle_angle_of_attack mission_flight_path_angle) (J_forces_vertical__vehicle_lift
      mission_flight_path_angle) vehicle_lift ∧
    HasDerivAt (fun t => out_forces_vertical gravity takeoff_angle_of_attack_runway
      takeoff_thrust_incidence vehicle_mass vehicle_lift t vehicle_drag vehicle_angle_of_attack
      mission_flight_path_angle) (J_forces_vertical__vehicle_propulsion_thrust_total
      takeoff_angle_of_attack_runway takeoff_thrust_incidence vehicle_angle_of_attack
      mission_flight_path_angle) vehicle_propulsion_thrust_total ∧
    HasDerivAt (fun t => out_forces_vertical gravity takeoff_angle_of_attack_runway
      takeoff_thrust_incidence vehicle_mass vehicle_lift vehicle_propulsion_thrust_total t
      vehicle_angle_of_attack mission_flight_path_angle) (J_forces_vertical__vehicle_drag
      mission_flight_path_angle) vehicle_drag ∧
    HasDerivAt (fun t => out_forces_vertical gravity takeoff_angle_of_attack_runway
      takeoff_thrust_incidence vehicle_mass vehicle_lift vehicle_propulsion_thrust_total
      vehicle_drag t mission_flight_path_angle) (J_forces_vertical__vehicle_angle_of_attack
      takeoff_angle_of_attack_runway takeoff_thrust_incidence vehicle_propulsion_thrust_total
      vehicle_angle_of_attack mission_flight_path_angle) vehicle_angle_of_attack ∧
    HasDerivAt (fun t => out_forces_vertical gravity takeoff_angle_of_attack_runway
      takeoff_thrust_incidence vehicle_mass vehicle_lift vehicle_propulsion_thrust_total
      vehicle_drag vehicle_angle_of_attack t) (J_forces_vertical__mission_flight_path_angle
      takeoff_angle_of_attack_runway takeoff_thrust_incidence vehicle_lift
      vehicle_propulsion_thrust_total vehicle_drag vehicle_angle_of_attack
      mission_flight_path_angle) mission_flight_path_angle :=
  ⟨d_forces_horizontal__vehicle_lift _ _ _ _ _ _ _,
    d_forces_horizontal__vehicle_propulsion_thrust_total _ _ _ _ _ _ _,
    d_forces_horizontal__vehicle_drag _ _ _ _ _ _ _, d_forces_horizontal__vehicle_angle_of_attack
    _ _ _ _ _ _ _, d_forces_horizontal__mission_flight_path_angle _ _ _ _ _ _ _,
    d_forces_vertical__vehicle_mass _ _ _ _ _ _ _ _ _, d_forces_vertical__vehicle_lift _ _ _ _ _ _
    _ _ _, d_forces_vertical__vehicle_propulsion_thrust_total _ _ _ _ _ _ _ _ _,
    d_forces_vertical__vehicle_drag _ _ _ _ _ _ _ _ _, d_forces_vertical__vehicle_angle_of_attack
    _ _ _ _ _ _ _ _ _, d_forces_vertical__mission_flight_path_angle _ _ _ _ _ _ _ _ _⟩

end Verif.Comp.MissionEnergyStateOdeLandingEom.FlareSumForces

namespace Verif.Comp.MissionEnergyStateOdeLandingEom.GlideSlopeForces
open Real

/-- aviary/mission/energy_state/ode/landing_eom.py:180 -/
noncomputable def weight (gravity vehicle_mass : ℝ) : ℝ := vehicle_mass * gravity

/-- aviary/mission/energy_state/ode/landing_eom.py:186 -/
noncomputable def gamma (mission_flight_path_angle : ℝ) : ℝ := -mission_flight_path_angle

/-- aviary/mission/energy_state/ode/landing_eom.py:188 -/
noncomputable def angle (takeoff_angle_of_attack_runway takeoff_thrust_incidence vehicle_angle_of_attack : ℝ) : ℝ :=
  (vehicle_angle_of_attack - takeoff_angle_of_attack_runway) + takeoff_thrust_incidence

/-- aviary/mission/energy_state/ode/landing_eom.py:190 -/
noncomputable def c_angle (takeoff_angle_of_attack_runway takeoff_thrust_incidence vehicle_angle_of_attack : ℝ) : ℝ :=
  cos (angle takeoff_angle_of_attack_runway takeoff_thrust_incidence vehicle_angle_of_attack)

/-- aviary/mission/energy_state/ode/landing_eom.py:191 -/
noncomputable def s_angle (takeoff_angle_of_attack_runway takeoff_thrust_incidence vehicle_angle_of_attack : ℝ) : ℝ :=
  sin (angle takeoff_angle_of_attack_runway takeoff_thrust_incidence vehicle_angle_of_attack)

/-- aviary/mission/energy_state/ode/landing_eom.py:193 -/
noncomputable def c_gamma (mission_flight_path_angle : ℝ) : ℝ :=
  cos (gamma mission_flight_path_angle)

/-- aviary/mission/energy_state/ode/landing_eom.py:194 -/
noncomputable def s_gamma (mission_flight_path_angle : ℝ) : ℝ :=
  sin (gamma mission_flight_path_angle)

/-- aviary/mission/energy_state/ode/landing_eom.py:199 -/
noncomputable def f_h (takeoff_angle_of_attack_runway takeoff_thrust_incidence gravity vehicle_mass vehicle_drag vehicle_angle_of_attack mission_flight_path_angle : ℝ) : ℝ :=
  (vehicle_drag - ((weight gravity vehicle_mass) * (s_gamma mission_flight_path_angle))) /
    (c_angle takeoff_angle_of_attack_runway takeoff_thrust_incidence vehicle_angle_of_attack)

/-- aviary/mission/energy_state/ode/landing_eom.py:200 -/
noncomputable def f_v (takeoff_angle_of_attack_runway takeoff_thrust_incidence gravity vehicle_mass vehicle_lift vehicle_angle_of_attack mission_flight_path_angle : ℝ) : ℝ :=
  (((weight gravity vehicle_mass) * (c_gamma mission_flight_path_angle)) - vehicle_lift) /
    (s_angle takeoff_angle_of_attack_runway takeoff_thrust_incidence vehicle_angle_of_attack)

/-- aviary/mission/energy_state/ode/landing_eom.py:233 -/
noncomputable def f_h_2 (takeoff_angle_of_attack_runway takeoff_thrust_incidence gravity vehicle_angle_of_attack mission_flight_path_angle : ℝ) : ℝ :=
  ((-gravity) * (s_gamma mission_flight_path_angle)) / (c_angle takeoff_angle_of_attack_runway
    takeoff_thrust_incidence vehicle_angle_of_attack)

/-- aviary/mission/energy_state/ode/landing_eom.py:234 -/
noncomputable def f_v_2 (takeoff_angle_of_attack_runway takeoff_thrust_incidence gravity vehicle_angle_of_attack mission_flight_path_angle : ℝ) : ℝ :=
  (gravity * (c_gamma mission_flight_path_angle)) / (s_angle takeoff_angle_of_attack_runway
    takeoff_thrust_incidence vehicle_angle_of_attack)

/-- aviary/mission/energy_state/ode/landing_eom.py:240 -/
noncomputable def f_v_3 (takeoff_angle_of_attack_runway takeoff_thrust_incidence vehicle_angle_of_attack : ℝ) : ℝ :=
  (-1) / (s_angle takeoff_angle_of_attack_runway takeoff_thrust_incidence
    vehicle_angle_of_attack)

/-- aviary/mission/energy_state/ode/landing_eom.py:245 -/
noncomputable def f_h_3 (takeoff_angle_of_attack_runway takeoff_thrust_incidence vehicle_angle_of_attack : ℝ) : ℝ :=
  1 / (c_angle takeoff_angle_of_attack_runway takeoff_thrust_incidence vehicle_angle_of_attack)

/-- aviary/mission/energy_state/ode/landing_eom.py:253 -/
noncomputable def t_angle (takeoff_angle_of_attack_runway takeoff_thrust_incidence vehicle_angle_of_attack : ℝ) : ℝ :=
  tan (angle takeoff_angle_of_attack_runway takeoff_thrust_incidence vehicle_angle_of_attack)

/-- aviary/mission/energy_state/ode/landing_eom.py:255 -/
noncomputable def f_h_4 (takeoff_angle_of_attack_runway takeoff_thrust_incidence gravity vehicle_mass vehicle_drag vehicle_angle_of_attack mission_flight_path_angle : ℝ) : ℝ :=
  ((t_angle takeoff_angle_of_attack_runway takeoff_thrust_incidence vehicle_angle_of_attack) *
    (vehicle_drag - ((weight gravity vehicle_mass) * (s_gamma mission_flight_path_angle)))) /
    (c_angle takeoff_angle_of_attack_runway takeoff_thrust_incidence vehicle_angle_of_attack)

/-- aviary/mission/energy_state/ode/landing_eom.py:256 -/
noncomputable def f_v_4 (takeoff_angle_of_attack_runway takeoff_thrust_incidence gravity vehicle_mass vehicle_lift vehicle_angle_of_attack mission_flight_path_angle : ℝ) : ℝ :=
  (-(((weight gravity vehicle_mass) * (c_gamma mission_flight_path_angle)) - vehicle_lift)) /
    ((s_angle takeoff_angle_of_attack_runway takeoff_thrust_incidence vehicle_angle_of_attack) *
    (t_angle takeoff_angle_of_attack_runway takeoff_thrust_incidence vehicle_angle_of_attack))

/-- aviary/mission/energy_state/ode/landing_eom.py:261 -/
noncomputable def f_h_5 (takeoff_angle_of_attack_runway takeoff_thrust_incidence gravity vehicle_mass vehicle_angle_of_attack mission_flight_path_angle : ℝ) : ℝ :=
  ((-(weight gravity vehicle_mass)) * (c_gamma mission_flight_path_angle)) / (c_angle
    takeoff_angle_of_attack_runway takeoff_thrust_incidence vehicle_angle_of_attack)

/-- aviary/mission/energy_state/ode/landing_eom.py:262 -/
noncomputable def f_v_5 (takeoff_angle_of_attack_runway takeoff_thrust_incidence gravity vehicle_mass vehicle_angle_of_attack mission_flight_path_angle : ℝ) : ℝ :=
  ((-(weight gravity vehicle_mass)) * (s_gamma mission_flight_path_angle)) / (s_angle
    takeoff_angle_of_attack_runway takeoff_thrust_incidence vehicle_angle_of_attack)

/-- Output `forces_perpendicular` of `GlideSlopeForces.compute`, aviary/mission/energy_state/ode/landing_eom.py:202 -/
noncomputable def out_forces_perpendicular (takeoff_angle_of_attack_runway takeoff_thrust_incidence gravity vehicle_mass vehicle_lift vehicle_drag vehicle_angle_of_attack mission_flight_path_angle : ℝ) : ℝ :=
  (f_h takeoff_angle_of_attack_runway takeoff_thrust_incidence gravity vehicle_mass vehicle_drag
    vehicle_angle_of_attack mission_flight_path_angle) - (f_v takeoff_angle_of_attack_runway
    takeoff_thrust_incidence gravity vehicle_mass vehicle_lift vehicle_angle_of_attack
    mission_flight_path_angle)

/-- Output `required_thrust` of `GlideSlopeForces.compute`, aviary/mission/energy_state/ode/landing_eom.py:203 -/
noncomputable def out_required_thrust (takeoff_angle_of_attack_runway takeoff_thrust_incidence gravity vehicle_mass vehicle_lift vehicle_drag vehicle_angle_of_attack mission_flight_path_angle : ℝ) : ℝ :=
  ((f_h takeoff_angle_of_attack_runway takeoff_thrust_incidence gravity vehicle_mass
    vehicle_drag vehicle_angle_of_attack mission_flight_path_angle) + (f_v
    takeoff_angle_of_attack_runway takeoff_thrust_incidence gravity vehicle_mass vehicle_lift
    vehicle_angle_of_attack mission_flight_path_angle)) / 2

/-- Partial of `forces_perpendicular` with respect to `vehicle_mass` as set by `GlideSlopeForces`, aviary/mission/energy_state/ode/landing_eom.py:236 -/
noncomputable def J_forces_perpendicular__vehicle_mass (takeoff_angle_of_attack_runway takeoff_thrust_incidence gravity vehicle_angle_of_attack mission_flight_path_angle : ℝ) : ℝ :=
  (f_h_2 takeoff_angle_of_attack_runway takeoff_thrust_incidence gravity vehicle_angle_of_attack
    mission_flight_path_angle) - (f_v_2 takeoff_angle_of_attack_runway takeoff_thrust_incidence
    gravity vehicle_angle_of_attack mission_flight_path_angle)

/-- Partial of `required_thrust` with respect to `vehicle_mass` as set by `GlideSlopeForces`, aviary/mission/energy_state/ode/landing_eom.py:237 -/
noncomputable def J_required_thrust__vehicle_mass (takeoff_angle_of_attack_runway takeoff_thrust_incidence gravity vehicle_angle_of_attack mission_flight_path_angle : ℝ) : ℝ :=
  ((f_h_2 takeoff_angle_of_attack_runway takeoff_thrust_incidence gravity
    vehicle_angle_of_attack mission_flight_path_angle) + (f_v_2 takeoff_angle_of_attack_runway
    takeoff_thrust_incidence gravity vehicle_angle_of_attack mission_flight_path_angle)) / 2

/-- Partial of `forces_perpendicular` with respect to `vehicle_lift` as set by `GlideSlopeForces`, aviary/mission/energy_state/ode/landing_eom.py:242 -/
noncomputable def J_forces_perpendicular__vehicle_lift (takeoff_angle_of_attack_runway takeoff_thrust_incidence vehicle_angle_of_attack : ℝ) : ℝ :=
  -(f_v_3 takeoff_angle_of_attack_runway takeoff_thrust_incidence vehicle_angle_of_attack)

/-- Partial of `required_thrust` with respect to `vehicle_lift` as set by `GlideSlopeForces`, aviary/mission/energy_state/ode/landing_eom.py:243 -/
noncomputable def J_required_thrust__vehicle_lift (takeoff_angle_of_attack_runway takeoff_thrust_incidence vehicle_angle_of_attack : ℝ) : ℝ :=
  (f_v_3 takeoff_angle_of_attack_runway takeoff_thrust_incidence vehicle_angle_of_attack) / 2

/-- Partial of `forces_perpendicular` with respect to `vehicle_drag` as set by `GlideSlopeForces`, aviary/mission/energy_state/ode/landing_eom.py:248 -/
noncomputable def J_forces_perpendicular__vehicle_drag (takeoff_angle_of_attack_runway takeoff_thrust_incidence vehicle_angle_of_attack : ℝ) : ℝ :=
  f_h_3 takeoff_angle_of_attack_runway takeoff_thrust_incidence vehicle_angle_of_attack

/-- Partial of `required_thrust` with respect to `vehicle_drag` as set by `GlideSlopeForces`, aviary/mission/energy_state/ode/landing_eom.py:249 -/
noncomputable def J_required_thrust__vehicle_drag (takeoff_angle_of_attack_runway takeoff_thrust_incidence vehicle_angle_of_attack : ℝ) : ℝ :=
  (f_h_3 takeoff_angle_of_attack_runway takeoff_thrust_incidence vehicle_angle_of_attack) / 2

/-- Partial of `forces_perpendicular` with respect to `vehicle_angle_of_attack` as set by `GlideSlopeForces`, aviary/mission/energy_state/ode/landing_eom.py:258 -/
noncomputable def J_forces_perpendicular__vehicle_angle_of_attack (takeoff_angle_of_attack_runway takeoff_thrust_incidence gravity vehicle_mass vehicle_lift vehicle_drag vehicle_angle_of_attack mission_flight_path_angle : ℝ) : ℝ :=
  (f_h_4 takeoff_angle_of_attack_runway takeoff_thrust_incidence gravity vehicle_mass
    vehicle_drag vehicle_angle_of_attack mission_flight_path_angle) - (f_v_4
    takeoff_angle_of_attack_runway takeoff_thrust_incidence gravity vehicle_mass vehicle_lift
    vehicle_angle_of_attack mission_flight_path_angle)

/-- Partial of `required_thrust` with respect to `vehicle_angle_of_attack` as set by `GlideSlopeForces`, aviary/mission/energy_state/ode/landing_eom.py:259 -/
noncomputable def J_required_thrust__vehicle_angle_of_attack (takeoff_angle_of_attack_runway takeoff_thrust_incidence gravity vehicle_mass vehicle_lift vehicle_drag vehicle_angle_of_attack mission_flight_path_angle : ℝ) : ℝ :=
  ((f_h_4 takeoff_angle_of_attack_runway takeoff_thrust_incidence gravity vehicle_mass
    vehicle_drag vehicle_angle_of_attack mission_flight_path_angle) + (f_v_4
    takeoff_angle_of_attack_runway takeoff_thrust_incidence gravity vehicle_mass vehicle_lift
    vehicle_angle_of_attack mission_flight_path_angle)) / 2

/-- Partial of `forces_perpendicular` with respect to `mission_flight_path_angle` as set by `GlideSlopeForces`, aviary/mission/energy_state/ode/landing_eom.py:264 -/
noncomputable def J_forces_perpendicular__mission_flight_path_angle (takeoff_angle_of_attack_runway takeoff_thrust_incidence gravity vehicle_mass vehicle_angle_of_attack mission_flight_path_angle : ℝ) : ℝ :=
  (-(f_h_5 takeoff_angle_of_attack_runway takeoff_thrust_incidence gravity vehicle_mass
    vehicle_angle_of_attack mission_flight_path_angle)) + (f_v_5 takeoff_angle_of_attack_runway
    takeoff_thrust_incidence gravity vehicle_mass vehicle_angle_of_attack
    mission_flight_path_angle)

/-- Partial of `required_thrust` with respect to `mission_flight_path_angle` as set by `GlideSlopeForces`, aviary/mission/energy_state/ode/landing_eom.py:265 -/
noncomputable def J_required_thrust__mission_flight_path_angle (takeoff_angle_of_attack_runway takeoff_thrust_incidence gravity vehicle_mass vehicle_angle_of_attack mission_flight_path_angle : ℝ) : ℝ :=
  (-((f_h_5 takeoff_angle_of_attack_runway takeoff_thrust_incidence gravity vehicle_mass
    vehicle_angle_of_attack mission_flight_path_angle) + (f_v_5 takeoff_angle_of_attack_runway
    takeoff_thrust_incidence gravity vehicle_mass vehicle_angle_of_attack
    mission_flight_path_angle))) / 2

theorem d_forces_perpendicular__vehicle_mass (takeoff_angle_of_attack_runway
    takeoff_thrust_incidence gravity vehicle_mass vehicle_lift vehicle_drag
    vehicle_angle_of_attack mission_flight_path_angle : ℝ) (h0 : cos ((vehicle_angle_of_attack -
    takeoff_angle_of_attack_runway) + takeoff_thrust_incidence) ≠ 0) (h1 : sin
    ((vehicle_angle_of_attack - takeoff_angle_of_attack_runway) + takeoff_thrust_incidence) ≠ 0) :
    HasDerivAt (fun t => out_forces_perpendicular takeoff_angle_of_attack_runway takeoff_thrust_incidence gravity t vehicle_lift vehicle_drag vehicle_angle_of_attack mission_flight_path_angle) (J_forces_perpendicular__vehicle_mass takeoff_angle_of_attack_runway takeoff_thrust_incidence gravity vehicle_angle_of_attack mission_flight_path_angle) vehicle_mass := by
  simp only [out_forces_perpendicular, J_forces_perpendicular__vehicle_mass, f_v_2, f_h_2, f_v, s_angle, c_gamma, f_h, c_angle, angle, s_gamma, gamma, weight]
  (apply hasDerivAt_of_eq; on_goal 1 => (repeat' comp_step))
  all_goals try comp_side
  all_goals try simp only [mul_zero, zero_mul, add_zero, zero_add, sub_zero, zero_sub, mul_one, one_mul]
  all_goals try push_cast
  all_goals comp_eq

theorem d_forces_perpendicular__vehicle_lift (takeoff_angle_of_attack_runway
    takeoff_thrust_incidence gravity vehicle_mass vehicle_lift vehicle_drag
    vehicle_angle_of_attack mission_flight_path_angle : ℝ) (h0 : cos ((vehicle_angle_of_attack -
    takeoff_angle_of_attack_runway) + takeoff_thrust_incidence) ≠ 0) (h1 : sin
    ((vehicle_angle_of_attack - takeoff_angle_of_attack_runway) + takeoff_thrust_incidence) ≠ 0) :
    HasDerivAt (fun t => out_forces_perpendicular takeoff_angle_of_attack_runway takeoff_thrust_incidence gravity vehicle_mass t vehicle_drag vehicle_angle_of_attack mission_flight_path_angle) (J_forces_perpendicular__vehicle_lift takeoff_angle_of_attack_runway takeoff_thrust_incidence vehicle_angle_of_attack) vehicle_lift := by
  simp only [out_forces_perpendicular, J_forces_perpendicular__vehicle_lift, f_v_3, f_v, s_angle, c_gamma, f_h, c_angle, angle, s_gamma, gamma, weight]
  (apply hasDerivAt_of_eq; on_goal 1 => (repeat' comp_step))
  all_goals try comp_side
  all_goals try simp only [mul_zero, zero_mul, add_zero, zero_add, sub_zero, zero_sub, mul_one, one_mul]
  all_goals try push_cast
  all_goals comp_eq

theorem d_forces_perpendicular__vehicle_drag (takeoff_angle_of_attack_runway
    takeoff_thrust_incidence gravity vehicle_mass vehicle_lift vehicle_drag
    vehicle_angle_of_attack mission_flight_path_angle : ℝ) (h0 : cos ((vehicle_angle_of_attack -
    takeoff_angle_of_attack_runway) + takeoff_thrust_incidence) ≠ 0) (h1 : sin
    ((vehicle_angle_of_attack - takeoff_angle_of_attack_runway) + takeoff_thrust_incidence) ≠ 0) :
    HasDerivAt (fun t => out_forces_perpendicular takeoff_angle_of_attack_runway takeoff_thrust_incidence gravity vehicle_mass vehicle_lift t vehicle_angle_of_attack mission_flight_path_angle) (J_forces_perpendicular__vehicle_drag takeoff_angle_of_attack_runway takeoff_thrust_incidence vehicle_angle_of_attack) vehicle_drag := by
  simp only [out_forces_perpendicular, J_forces_perpendicular__vehicle_drag, f_h_3, f_v, s_angle, c_gamma, f_h, c_angle, angle, s_gamma, gamma, weight]
  (apply hasDerivAt_of_eq; on_goal 1 => (repeat' comp_step))
  all_goals try comp_side
  all_goals try simp only [mul_zero, zero_mul, add_zero, zero_add, sub_zero, zero_sub, mul_one, one_mul]
  all_goals try push_cast
  all_goals comp_eq

theorem d_forces_perpendicular__vehicle_angle_of_attack (takeoff_angle_of_attack_runway
    takeoff_thrust_incidence gravity vehicle_mass vehicle_lift vehicle_drag
    vehicle_angle_of_attack mission_flight_path_angle : ℝ) (h0 : cos ((vehicle_angle_of_attack -
    takeoff_angle_of_attack_runway) + takeoff_thrust_incidence) ≠ 0) (h1 : sin
    ((vehicle_angle_of_attack - takeoff_angle_of_attack_runway) + takeoff_thrust_incidence) ≠ 0)
    (h2 : tan ((vehicle_angle_of_attack - takeoff_angle_of_attack_runway) +
    takeoff_thrust_incidence) ≠ 0) :
    HasDerivAt (fun t => out_forces_perpendicular takeoff_angle_of_attack_runway takeoff_thrust_incidence gravity vehicle_mass vehicle_lift vehicle_drag t mission_flight_path_angle) (J_forces_perpendicular__vehicle_angle_of_attack takeoff_angle_of_attack_runway takeoff_thrust_incidence gravity vehicle_mass vehicle_lift vehicle_drag vehicle_angle_of_attack mission_flight_path_angle) vehicle_angle_of_attack := by
  simp only [out_forces_perpendicular, J_forces_perpendicular__vehicle_angle_of_attack, f_v_4, f_h_4, t_angle, f_v, s_angle, c_gamma, f_h, c_angle, angle, s_gamma, gamma, weight, tan_eq_sin_div_cos]
  (apply hasDerivAt_of_eq; on_goal 1 => (repeat' comp_step))
  all_goals try comp_side
  all_goals try simp (disch := first | assumption | positivity) only [mul_rpow, div_rpow]
  all_goals try simp only [mul_zero, zero_mul, add_zero, zero_add, sub_zero, zero_sub, mul_one, one_mul]
  all_goals try push_cast
  all_goals comp_eq

theorem d_forces_perpendicular__mission_flight_path_angle (takeoff_angle_of_attack_runway
    takeoff_thrust_incidence gravity vehicle_mass vehicle_lift vehicle_drag
    vehicle_angle_of_attack mission_flight_path_angle : ℝ) (h0 : cos ((vehicle_angle_of_attack -
    takeoff_angle_of_attack_runway) + takeoff_thrust_incidence) ≠ 0) (h1 : sin
    ((vehicle_angle_of_attack - takeoff_angle_of_attack_runway) + takeoff_thrust_incidence) ≠ 0) :
    HasDerivAt (fun t => out_forces_perpendicular takeoff_angle_of_attack_runway takeoff_thrust_incidence gravity vehicle_mass vehicle_lift vehicle_drag vehicle_angle_of_attack t) (J_forces_perpendicular__mission_flight_path_angle takeoff_angle_of_attack_runway takeoff_thrust_incidence gravity vehicle_mass vehicle_angle_of_attack mission_flight_path_angle) mission_flight_path_angle := by
  simp only [out_forces_perpendicular, J_forces_perpendicular__mission_flight_path_angle, f_v_5, f_h_5, f_v, s_angle, c_gamma, f_h, c_angle, angle, s_gamma, gamma, weight]
  (apply hasDerivAt_of_eq; on_goal 1 => (repeat' comp_step))
  all_goals try comp_side
  all_goals try simp only [mul_zero, zero_mul, add_zero, zero_add, sub_zero, zero_sub, mul_one, one_mul]
  all_goals try push_cast
  all_goals comp_eq

theorem d_required_thrust__vehicle_mass (takeoff_angle_of_attack_runway takeoff_thrust_incidence
    gravity vehicle_mass vehicle_lift vehicle_drag vehicle_angle_of_attack
    mission_flight_path_angle : ℝ) (h0 : cos ((vehicle_angle_of_attack -
    takeoff_angle_of_attack_runway) + takeoff_thrust_incidence) ≠ 0) (h1 : sin
    ((vehicle_angle_of_attack - takeoff_angle_of_attack_runway) + takeoff_thrust_incidence) ≠ 0) :
    HasDerivAt (fun t => out_required_thrust takeoff_angle_of_attack_runway takeoff_thrust_incidence gravity t vehicle_lift vehicle_drag vehicle_angle_of_attack mission_flight_path_angle) (J_required_thrust__vehicle_mass takeoff_angle_of_attack_runway takeoff_thrust_incidence gravity vehicle_angle_of_attack mission_flight_path_angle) vehicle_mass := by
  simp only [out_required_thrust, J_required_thrust__vehicle_mass, f_v_2, f_h_2, f_v, s_angle, c_gamma, f_h, c_angle, angle, s_gamma, gamma, weight]
  (apply hasDerivAt_of_eq; on_goal 1 => (repeat' comp_step))
  all_goals try comp_side
  all_goals try simp only [mul_zero, zero_mul, add_zero, zero_add, sub_zero, zero_sub, mul_one, one_mul]
  all_goals try push_cast
  all_goals comp_eq

theorem d_required_thrust__vehicle_lift (takeoff_angle_of_attack_runway takeoff_thrust_incidence
    gravity vehicle_mass vehicle_lift vehicle_drag vehicle_angle_of_attack
    mission_flight_path_angle : ℝ) (h0 : cos ((vehicle_angle_of_attack -
    takeoff_angle_of_attack_runway) + takeoff_thrust_incidence) ≠ 0) (h1 : sin
    ((vehicle_angle_of_attack - takeoff_angle_of_attack_runway) + takeoff_thrust_incidence) ≠ 0) :
    HasDerivAt (fun t => out_required_thrust takeoff_angle_of_attack_runway takeoff_thrust_incidence gravity vehicle_mass t vehicle_drag vehicle_angle_of_attack mission_flight_path_angle) (J_required_thrust__vehicle_lift takeoff_angle_of_attack_runway takeoff_thrust_incidence vehicle_angle_of_attack) vehicle_lift := by
  simp only [out_required_thrust, J_required_thrust__vehicle_lift, f_v_3, f_v, s_angle, c_gamma, f_h, c_angle, angle, s_gamma, gamma, weight]
  (apply hasDerivAt_of_eq; on_goal 1 => (repeat' comp_step))
  all_goals try comp_side
  all_goals try simp only [mul_zero, zero_mul, add_zero, zero_add, sub_zero, zero_sub, mul_one, one_mul]
  all_goals try push_cast
  all_goals comp_eq

theorem d_required_thrust__vehicle_drag (takeoff_angle_of_attack_runway takeoff_thrust_incidence
    gravity vehicle_mass vehicle_lift vehicle_drag vehicle_angle_of_attack
    mission_flight_path_angle : ℝ) (h0 : cos ((vehicle_angle_of_attack -
    takeoff_angle_of_attack_runway) + takeoff_thrust_incidence) ≠ 0) (h1 : sin
    ((vehicle_angle_of_attack - takeoff_angle_of_attack_runway) + takeoff_thrust_incidence) ≠ 0) :
    HasDerivAt (fun t => out_required_thrust takeoff_angle_of_attack_runway takeoff_thrust_incidence gravity vehicle_mass vehicle_lift t vehicle_angle_of_attack mission_flight_path_angle) (J_required_thrust__vehicle_drag takeoff_angle_of_attack_runway takeoff_thrust_incidence vehicle_angle_of_attack) vehicle_drag := by
  simp only [out_required_thrust, J_required_thrust__vehicle_drag, f_h_3, f_v, s_angle, c_gamma, f_h, c_angle, angle, s_gamma, gamma, weight]
  (apply hasDerivAt_of_eq; on_goal 1 => (repeat' comp_step))
  all_goals try comp_side
  all_goals try simp only [mul_zero, zero_mul, add_zero, zero_add, sub_zero, zero_sub, mul_one, one_mul]
  all_goals try push_cast
  all_goals comp_eq

theorem d_required_thrust__vehicle_angle_of_attack (takeoff_angle_of_attack_runway
    takeoff_thrust_incidence gravity vehicle_mass vehicle_lift vehicle_drag
    vehicle_angle_of_attack mission_flight_path_angle : ℝ) (h0 : cos ((vehicle_angle_of_attack -
    takeoff_angle_of_attack_runway) + takeoff_thrust_incidence) ≠ 0) (h1 : sin
    ((vehicle_angle_of_attack - takeoff_angle_of_attack_runway) + takeoff_thrust_incidence) ≠ 0)
    (h2 : tan ((vehicle_angle_of_attack - takeoff_angle_of_attack_runway) +
    takeoff_thrust_incidence) ≠ 0) :
    HasDerivAt (fun t => out_required_thrust takeoff_angle_of_attack_runway takeoff_thrust_incidence gravity vehicle_mass vehicle_lift vehicle_drag t mission_flight_path_angle) (J_required_thrust__vehicle_angle_of_attack takeoff_angle_of_attack_runway takeoff_thrust_incidence gravity vehicle_mass vehicle_lift vehicle_drag vehicle_angle_of_attack mission_flight_path_angle) vehicle_angle_of_attack := by
  simp only [out_required_thrust, J_required_thrust__vehicle_angle_of_attack, f_v_4, f_h_4, t_angle, f_v, s_angle, c_gamma, f_h, c_angle, angle, s_gamma, gamma, weight, tan_eq_sin_div_cos]
  (apply hasDerivAt_of_eq; on_goal 1 => (repeat' comp_step))
  all_goals try comp_side
  all_goals try simp (disch := first | assumption | positivity) only [mul_rpow, div_rpow]
  all_goals try simp only [mul_zero, zero_mul, add_zero, zero_add, sub_zero, zero_sub, mul_one, one_mul]
  all_goals try push_cast
  all_goals comp_eq

theorem d_required_thrust__mission_flight_path_angle (takeoff_angle_of_attack_runway
    takeoff_thrust_incidence gravity vehicle_mass vehicle_lift vehicle_drag
    vehicle_angle_of_attack mission_flight_path_angle : ℝ) (h0 : cos ((vehicle_angle_of_attack -
    takeoff_angle_of_attack_runway) + takeoff_thrust_incidence) ≠ 0) (h1 : sin
    ((vehicle_angle_of_attack - takeoff_angle_of_attack_runway) + takeoff_thrust_incidence) ≠ 0) :
    HasDerivAt (fun t => out_required_thrust takeoff_angle_of_attack_runway takeoff_thrust_incidence gravity vehicle_mass vehicle_lift vehicle_drag vehicle_angle_of_attack t) (J_required_thrust__mission_flight_path_angle takeoff_angle_of_attack_runway takeoff_thrust_incidence gravity vehicle_mass vehicle_angle_of_attack mission_flight_path_angle) mission_flight_path_angle := by
  simp only [out_required_thrust, J_required_thrust__mission_flight_path_angle, f_v_5, f_h_5, f_v, s_angle, c_gamma, f_h, c_angle, angle, s_gamma, gamma, weight]
  (apply hasDerivAt_of_eq; on_goal 1 => (repeat' comp_step))
  all_goals try comp_side
  all_goals try simp only [mul_zero, zero_mul, add_zero, zero_add, sub_zero, zero_sub, mul_one, one_mul]
  all_goals try push_cast
  all_goals comp_eq

/-- Every partial derivative set by `GlideSlopeForces` is the derivative of its output. -/
theorem partials (takeoff_angle_of_attack_runway takeoff_thrust_incidence gravity vehicle_mass
    vehicle_lift vehicle_drag vehicle_angle_of_attack mission_flight_path_angle : ℝ) (h0 : cos
    ((vehicle_angle_of_attack - takeoff_angle_of_attack_runway) + takeoff_thrust_incidence) ≠ 0)
    (h1 : sin ((vehicle_angle_of_attack - takeoff_angle_of_attack_runway) +
    takeoff_thrust_incidence) ≠ 0) (h2 : tan ((vehicle_angle_of_attack -
    takeoff_angle_of_attack_runway) + takeoff_thrust_incidence) ≠ 0) :
    HasDerivAt (fun t => out_forces_perpendicular takeoff_angle_of_attack_runway
      takeoff_thrust_incidence gravity t vehicle_lift vehicle_drag vehicle_angle_of_attack
      mission_flight_path_angle) (J_forces_perpendicular__vehicle_mass
      takeoff_angle_of_attack_runway takeoff_thrust_incidence gravity vehicle_angle_of_attack
      mission_flight_path_angle) vehicle_mass ∧
    HasDerivAt (fun t => out_forces_perpendicular takeoff_angle_of_attack_runway
      takeoff_thrust_incidence gravity vehicle_mass t vehicle_drag vehicle_angle_of_attack
      mission_flight_path_angle) (J_forces_perpendicular__vehicle_lift
      takeoff_angle_of_attack_runway takeoff_thrust_incidence vehicle_angle_of_attack)
      vehicle_lift ∧
    HasDerivAt (fun t => out_forces_perpendicular takeoff_angle_of_attack_runway
      takeoff_thrust_incidence gravity vehicle_mass vehicle_lift t vehicle_angle_of_attack
      mission_flight_path_angle) (J_forces_perpendicular__vehicle_drag
      takeoff_angle_of_attack_runway takeoff_thrust_incidence vehicle_angle_of_attack)
      vehicle_drag ∧
    HasDerivAt (fun t => out_forces_perpendicular takeoff_angle_of_attack_runway
      takeoff_thrust_incidence gravity vehicle_mass vehicle_lift vehicle_drag t
      mission_flight_path_angle) (J_forces_perpendicular__vehicle_angle_of_attack
      takeoff_angle_of_attack_runway takeoff_thrust_incidence gravity vehicle_mass vehicle_lift
      vehicle_drag vehicle_angle_of_attack mission_flight_path_angle) vehicle_angle_of_attack ∧
    HasDerivAt (fun t => out_forces_perpendicular takeoff_angle_of_attack_runway
      takeoff_thrust_incidence gravity vehicle_mass vehicle_lift vehicle_drag
      vehicle_angle_of_attack t) (J_forces_perpendicular__mission_flight_path_angle
      takeoff_angle_of_attack_runway takeoff_thrust_incidence gravity vehicle_mass
      vehicle_angle_of_attack mission_flight_path_angle) mission_flight_path_angle ∧
    HasDerivAt (fun t => out_required_thrust takeoff_angle_of_attack_runway takeoff_thrust_incidence
      gravity t vehicle_lift vehicle_drag vehicle_angle_of_attack mission_flight_path_angle)
      (J_required_thrust__vehicle_mass takeoff_angle_of_attack_runway takeoff_thrust_incidence
      gravity vehicle_angle_of_attack mission_flight_path_angle) vehicle_mass ∧
    HasDerivAt (fun t => out_required_thrust takeoff_angle_of_attack_runway takeoff_thrust_incidence
      gravity vehicle_mass t vehicle_drag vehicle_angle_of_attack mission_flight_path_angle)
      (J_required_thrust__vehicle_lift takeoff_angle_of_attack_runway takeoff_thrust_incidence
      vehicle_angle_of_attack) vehicle_lift ∧
    HasDerivAt (fun t => out_required_thrust takeoff_angle_of_attack_runway takeoff_thrust_incidence
      gravity vehicle_mass vehicle_lift t vehicle_angle_of_attack mission_flight_path_angle)
      (J_required_thrust__vehicle_drag takeoff_angle_of_attack_runway takeoff_thrust_incidence
      vehicle_angle_of_attack) vehicle_drag ∧
    HasDerivAt (fun t => out_required_thrust takeoff_angle_of_attack_runway takeoff_thrust_incidence
      gravity vehicle_mass vehicle_lift vehicle_drag t mission_flight_path_angle)
      (J_required_thrust__vehicle_angle_of_attack takeoff_angle_of_attack_runway
      takeoff_thrust_incidence gravity vehicle_mass vehicle_lift vehicle_drag
      vehicle_angle_of_attack mission_flight_path_angle) vehicle_angle_of_attack ∧
    HasDerivAt (fun t => out_required_thrust takeoff_angle_of_attack_runway takeoff_thrust_incidence
      gravity vehicle_mass vehicle_lift vehicle_drag vehicle_angle_of_attack t)
      (J_required_thrust__mission_flight_path_angle takeoff_angle_of_attack_runway
      takeoff_thrust_incidence gravity vehicle_mass vehicle_angle_of_attack
      mission_flight_path_angle) mission_flight_path_angle :=
  ⟨d_forces_perpendicular__vehicle_mass _ _ _ _ _ _ _ _ h0 h1,
    d_forces_perpendicular__vehicle_lift _ _ _ _ _ _ _ _ h0 h1,
    d_forces_perpendicular__vehicle_drag _ _ _ _ _ _ _ _ h0 h1,
    d_forces_perpendicular__vehicle_angle_of_attack _ _ _ _ _ _ _ _ h0 h1 h2,
    d_forces_perpendicular__mission_flight_path_angle _ _ _ _ _ _ _ _ h0 h1,
    d_required_thrust__vehicle_mass _ _ _ _ _ _ _ _ h0 h1, d_required_thrust__vehicle_lift _ _ _ _
    _ _ _ _ h0 h1, d_required_thrust__vehicle_drag _ _ _ _ _ _ _ _ h0 h1,
    d_required_thrust__vehicle_angle_of_attack _ _ _ _ _ _ _ _ h0 h1 h2,
    d_required_thrust__mission_flight_path_angle _ _ _ _ _ _ _ _ h0 h1⟩

end Verif.Comp.MissionEnergyStateOdeLandingEom.GlideSlopeForces

namespace Verif.Comp.MissionEnergyStateOdeLandingEom.GroundSumForces
open Real

/-- aviary/mission/energy_state/ode/landing_eom.py:509 -/
noncomputable abbrev weight (gravity vehicle_mass : ℝ) : ℝ := vehicle_mass * gravity

/-- aviary/mission/energy_state/ode/landing_eom.py:511 -/
noncomputable abbrev f_v (gravity vehicle_mass vehicle_lift : ℝ) : ℝ :=
  vehicle_lift - (weight gravity vehicle_mass)

/-- aviary/mission/energy_state/ode/landing_eom.py:516 -/
noncomputable abbrev friction (gravity friction_coefficient vehicle_mass vehicle_lift : ℝ) : ℝ :=
  if (f_v gravity vehicle_mass vehicle_lift) < 0 then ((-friction_coefficient) * (f_v gravity
    vehicle_mass vehicle_lift)) else 0

/-- aviary/mission/energy_state/ode/landing_eom.py:518 -/
noncomputable abbrev f_h (gravity friction_coefficient vehicle_mass vehicle_lift vehicle_propulsion_thrust_total vehicle_drag : ℝ) : ℝ :=
  ((friction gravity friction_coefficient vehicle_mass vehicle_lift) + vehicle_drag) -
    vehicle_propulsion_thrust_total

/-- aviary/mission/energy_state/ode/landing_eom.py:538 -/
noncomputable abbrev friction_2 (gravity friction_coefficient vehicle_mass vehicle_lift : ℝ) : ℝ :=
  if (f_v gravity vehicle_mass vehicle_lift) < 0 then (friction_coefficient * gravity) else 0

/-- aviary/mission/energy_state/ode/landing_eom.py:543 -/
noncomputable abbrev friction_3 (gravity friction_coefficient vehicle_mass vehicle_lift : ℝ) : ℝ :=
  if (f_v gravity vehicle_mass vehicle_lift) < 0 then (-friction_coefficient) else 0

/-- Output `forces_vertical` of `GroundSumForces.compute`, aviary/mission/energy_state/ode/landing_eom.py:512 -/
noncomputable def out_forces_vertical (gravity vehicle_mass vehicle_lift : ℝ) : ℝ :=
  f_v gravity vehicle_mass vehicle_lift

/-- Output `forces_horizontal` of `GroundSumForces.compute`, aviary/mission/energy_state/ode/landing_eom.py:519 -/
noncomputable def out_forces_horizontal (gravity friction_coefficient vehicle_mass vehicle_lift vehicle_propulsion_thrust_total vehicle_drag : ℝ) : ℝ :=
  f_h gravity friction_coefficient vehicle_mass vehicle_lift vehicle_propulsion_thrust_total
    vehicle_drag

/-- Partial of `forces_vertical` with respect to `vehicle_mass` as set by `GroundSumForces`, aviary/mission/energy_state/ode/landing_eom.py:459 -/
noncomputable def J_forces_vertical__vehicle_mass (gravity : ℝ) : ℝ := -gravity

/-- Partial of `forces_vertical` with respect to `vehicle_lift` as set by `GroundSumForces`, aviary/mission/energy_state/ode/landing_eom.py:467 -/
noncomputable def J_forces_vertical__vehicle_lift : ℝ := 1

/-- Partial of `forces_horizontal` with respect to `vehicle_propulsion_thrust_total` as set by `GroundSumForces`, aviary/mission/energy_state/ode/landing_eom.py:484 -/
noncomputable def J_forces_horizontal__vehicle_propulsion_thrust_total : ℝ := -1

/-- Partial of `forces_horizontal` with respect to `vehicle_drag` as set by `GroundSumForces`, aviary/mission/energy_state/ode/landing_eom.py:492 -/
noncomputable def J_forces_horizontal__vehicle_drag : ℝ := 1

/-- Partial of `forces_horizontal` with respect to `vehicle_mass` as set by `GroundSumForces`, aviary/mission/energy_state/ode/landing_eom.py:540 -/
noncomputable def J_forces_horizontal__vehicle_mass (gravity friction_coefficient vehicle_mass vehicle_lift : ℝ) : ℝ :=
  friction_2 gravity friction_coefficient vehicle_mass vehicle_lift

/-- Partial of `forces_horizontal` with respect to `vehicle_lift` as set by `GroundSumForces`, aviary/mission/energy_state/ode/landing_eom.py:544 -/
noncomputable def J_forces_horizontal__vehicle_lift (gravity friction_coefficient vehicle_mass vehicle_lift : ℝ) : ℝ :=
  friction_3 gravity friction_coefficient vehicle_mass vehicle_lift

theorem d_forces_vertical__vehicle_mass (gravity vehicle_mass vehicle_lift : ℝ)  :
    HasDerivAt (fun t => out_forces_vertical gravity t vehicle_lift) (J_forces_vertical__vehicle_mass gravity) vehicle_mass := by
  simp only [out_forces_vertical, J_forces_vertical__vehicle_mass, f_v, weight]
  (apply hasDerivAt_of_eq; on_goal 1 => (repeat' comp_step))
  all_goals try comp_side
  all_goals try simp only [mul_zero, zero_mul, add_zero, zero_add, sub_zero, zero_sub, mul_one, one_mul]
  all_goals try push_cast
  all_goals comp_eq

theorem d_forces_vertical__vehicle_lift (gravity vehicle_mass vehicle_lift : ℝ)  :
    HasDerivAt (fun t => out_forces_vertical gravity vehicle_mass t) (J_forces_vertical__vehicle_lift) vehicle_lift := by
  simp only [out_forces_vertical, J_forces_vertical__vehicle_lift, f_v, weight]
  (apply hasDerivAt_of_eq; on_goal 1 => (repeat' comp_step))
  all_goals try comp_side
  all_goals try simp only [mul_zero, zero_mul, add_zero, zero_add, sub_zero, zero_sub, mul_one, one_mul]
  all_goals try push_cast
  all_goals comp_eq

theorem d_forces_horizontal__vehicle_mass (gravity friction_coefficient vehicle_mass vehicle_lift
    vehicle_propulsion_thrust_total vehicle_drag : ℝ) (h0 : vehicle_lift - (vehicle_mass *
    gravity) ≠ 0) :
    HasDerivAt (fun t => out_forces_horizontal gravity friction_coefficient t vehicle_lift vehicle_propulsion_thrust_total vehicle_drag) (J_forces_horizontal__vehicle_mass gravity friction_coefficient vehicle_mass vehicle_lift) vehicle_mass := by
  simp only [out_forces_horizontal, J_forces_horizontal__vehicle_mass, friction_2, f_h, friction, f_v, weight]
  try split_ifs
  all_goals (apply hasDerivAt_of_eq; on_goal 1 => (repeat' comp_step))
  all_goals try comp_side
  all_goals try split_ifs
  all_goals try (exfalso; linarith)
  all_goals try simp only [mul_zero, zero_mul, add_zero, zero_add, sub_zero, zero_sub, mul_one, one_mul]
  all_goals try push_cast
  all_goals comp_eq

theorem d_forces_horizontal__vehicle_lift (gravity friction_coefficient vehicle_mass vehicle_lift
    vehicle_propulsion_thrust_total vehicle_drag : ℝ) (h0 : vehicle_lift - (vehicle_mass *
    gravity) ≠ 0) :
    HasDerivAt (fun t => out_forces_horizontal gravity friction_coefficient vehicle_mass t vehicle_propulsion_thrust_total vehicle_drag) (J_forces_horizontal__vehicle_lift gravity friction_coefficient vehicle_mass vehicle_lift) vehicle_lift := by
  simp only [out_forces_horizontal, J_forces_horizontal__vehicle_lift, friction_3, f_h, friction, f_v, weight]
  try split_ifs
  all_goals (apply hasDerivAt_of_eq; on_goal 1 => (repeat' comp_step))
  all_goals try comp_side
  all_goals try split_ifs
  all_goals try (exfalso; linarith)
  all_goals try simp only [mul_zero, zero_mul, add_zero, zero_add, sub_zero, zero_sub, mul_one, one_mul]
  all_goals try push_cast
  all_goals comp_eq

theorem d_forces_horizontal__vehicle_propulsion_thrust_total (gravity friction_coefficient
    vehicle_mass vehicle_lift vehicle_propulsion_thrust_total vehicle_drag : ℝ)  :
    HasDerivAt (fun t => out_forces_horizontal gravity friction_coefficient vehicle_mass vehicle_lift t vehicle_drag) (J_forces_horizontal__vehicle_propulsion_thrust_total) vehicle_propulsion_thrust_total := by
  simp only [out_forces_horizontal, J_forces_horizontal__vehicle_propulsion_thrust_total, f_h, friction, f_v, weight]
  try split_ifs
  all_goals (apply hasDerivAt_of_eq; on_goal 1 => (repeat' comp_step))
  all_goals try comp_side
  all_goals try split_ifs
  all_goals try (exfalso; linarith)
  all_goals try simp only [mul_zero, zero_mul, add_zero, zero_add, sub_zero, zero_sub, mul_one, one_mul]
  all_goals try push_cast
  all_goals comp_eq

theorem d_forces_horizontal__vehicle_drag (gravity friction_coefficient vehicle_mass vehicle_lift
    vehicle_propulsion_thrust_total vehicle_drag : ℝ)  :
    HasDerivAt (fun t => out_forces_horizontal gravity friction_coefficient vehicle_mass vehicle_lift vehicle_propulsion_thrust_total t) (J_forces_horizontal__vehicle_drag) vehicle_drag := by
  simp only [out_forces_horizontal, J_forces_horizontal__vehicle_drag, f_h, friction, f_v, weight]
  try split_ifs
  all_goals (apply hasDerivAt_of_eq; on_goal 1 => (repeat' comp_step))
  all_goals try comp_side
  all_goals try split_ifs
  all_goals try (exfalso; linarith)
  all_goals try simp only [mul_zero, zero_mul, add_zero, zero_add, sub_zero, zero_sub, mul_one, one_mul]
  all_goals try push_cast
  all_goals comp_eq

/-- Every partial derivative set by `GroundSumForces` is the derivative of its output. -/
theorem partials (gravity friction_coefficient vehicle_mass vehicle_lift
    vehicle_propulsion_thrust_total vehicle_drag : ℝ) (h0 : vehicle_lift - (vehicle_mass *
    gravity) ≠ 0) :
    HasDerivAt (fun t => out_forces_vertical gravity t vehicle_lift) (J_forces_vertical__vehicle_mass
      gravity) vehicle_mass ∧
    HasDerivAt (fun t => out_forces_vertical gravity vehicle_mass t) (J_forces_vertical__vehicle_lift)
      vehicle_lift ∧
    HasDerivAt (fun t => out_forces_horizontal gravity friction_coefficient t vehicle_lift
      vehicle_propulsion_thrust_total vehicle_drag) (J_forces_horizontal__vehicle_mass gravity
      friction_coefficient vehicle_mass vehicle_lift) vehicle_mass ∧
    HasDerivAt (fun t => out_forces_horizontal gravity friction_coefficient vehicle_mass t
      vehicle_propulsion_thrust_total vehicle_drag) (J_forces_horizontal__vehicle_lift gravity
      friction_coefficient vehicle_mass vehicle_lift) vehicle_lift ∧
    HasDerivAt (fun t => out_forces_horizontal gravity friction_coefficient vehicle_mass vehicle_lift
      t vehicle_drag) (J_forces_horizontal__vehicle_propulsion_thrust_total)
      vehicle_propulsion_thrust_total ∧
    HasDerivAt (fun t => out_forces_horizontal gravity friction_coefficient vehicle_mass vehicle_lift
      vehicle_propulsion_thrust_total t) (J_forces_horizontal__vehicle_drag) vehicle_drag :=
  ⟨d_forces_vertical__vehicle_mass _ _ _, d_forces_vertical__vehicle_lift _ _ _,
    d_forces_horizontal__vehicle_mass _ _ _ _ _ _ h0, d_forces_horizontal__vehicle_lift _ _ _ _ _
    _ h0, d_forces_horizontal__vehicle_propulsion_thrust_total _ _ _ _ _ _,
    d_forces_horizontal__vehicle_drag _ _ _ _ _ _⟩

example : ∃ gravity friction_coefficient vehicle_mass vehicle_lift vehicle_propulsion_thrust_total
      vehicle_drag : ℝ,
      vehicle_lift - (vehicle_mass * gravity) ≠ 0 :=
  ⟨0, 0, 0, 1, 1, 1, by comp_example⟩

end Verif.Comp.MissionEnergyStateOdeLandingEom.GroundSumForces

