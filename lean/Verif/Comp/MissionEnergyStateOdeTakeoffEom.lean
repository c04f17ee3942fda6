import Verif.Lemmas.CompDeriv

/-! # Partial derivatives of the components of `aviary/mission/energy_state/ode/takeoff_eom.py`

One node of a vector component is modelled over the real numbers.  Each option that selects a
branch is fixed, one namespace per choice.  `out_x` is the output `x`, `J_x__y` the entry that
`compute_partials` (or `declare_partials` with `val`) assigns, `d_x__y` the proof that the entry is
the derivative.  Inputs an output does not take as argument have no influence on it. -/

set_option linter.all false

namespace Verif.Comp.MissionEnergyStateOdeTakeoffEom.Accelerations
open Real

/-- aviary/mission/energy_state/ode/takeoff_eom.py:344 -/
noncomputable def a_h (vehicle_mass forces_horizontal : ℝ) : ℝ := forces_horizontal / vehicle_mass

/-- aviary/mission/energy_state/ode/takeoff_eom.py:347 -/
noncomputable def a_v (vehicle_mass forces_vertical : ℝ) : ℝ := forces_vertical / vehicle_mass

/-- aviary/mission/energy_state/ode/takeoff_eom.py:355 -/
noncomputable def m2 (vehicle_mass : ℝ) : ℝ := vehicle_mass * vehicle_mass

/-- Output `acceleration_horizontal` of `Accelerations.compute`, aviary/mission/energy_state/ode/takeoff_eom.py:345 -/
noncomputable def out_acceleration_horizontal (vehicle_mass forces_horizontal : ℝ) : ℝ :=
  a_h vehicle_mass forces_horizontal

/-- Output `acceleration_vertical` of `Accelerations.compute`, aviary/mission/energy_state/ode/takeoff_eom.py:348 -/
noncomputable def out_acceleration_vertical (vehicle_mass forces_vertical : ℝ) : ℝ :=
  a_v vehicle_mass forces_vertical

/-- Partial of `acceleration_horizontal` with respect to `vehicle_mass` as set by `Accelerations`, aviary/mission/energy_state/ode/takeoff_eom.py:357 -/
noncomputable def J_acceleration_horizontal__vehicle_mass (vehicle_mass forces_horizontal : ℝ) : ℝ :=
  (-forces_horizontal) / (m2 vehicle_mass)

/-- Partial of `acceleration_vertical` with respect to `vehicle_mass` as set by `Accelerations`, aviary/mission/energy_state/ode/takeoff_eom.py:358 -/
noncomputable def J_acceleration_vertical__vehicle_mass (vehicle_mass forces_vertical : ℝ) : ℝ :=
  (-forces_vertical) / (m2 vehicle_mass)

/-- Partial of `acceleration_horizontal` with respect to `forces_horizontal` as set by `Accelerations`, aviary/mission/energy_state/ode/takeoff_eom.py:360 -/
noncomputable def J_acceleration_horizontal__forces_horizontal (vehicle_mass : ℝ) : ℝ :=
  1 / vehicle_mass

/-- Partial of `acceleration_vertical` with respect to `forces_vertical` as set by `Accelerations`, aviary/mission/energy_state/ode/takeoff_eom.py:362 -/
noncomputable def J_acceleration_vertical__forces_vertical (vehicle_mass : ℝ) : ℝ :=
  1 / vehicle_mass

theorem d_acceleration_horizontal__vehicle_mass (vehicle_mass forces_horizontal : ℝ) (h0 : 0 <
    vehicle_mass) :
    HasDerivAt (fun t => out_acceleration_horizontal t forces_horizontal) (J_acceleration_horizontal__vehicle_mass vehicle_mass forces_horizontal) vehicle_mass := by
  simp only [out_acceleration_horizontal, J_acceleration_horizontal__vehicle_mass, m2, a_h]
  (apply hasDerivAt_of_eq; on_goal 1 => (repeat' comp_step))
  all_goals try comp_side
  all_goals try simp only [mul_zero, zero_mul, add_zero, zero_add, sub_zero, zero_sub, mul_one, one_mul]
  all_goals try push_cast
  all_goals comp_eq

theorem d_acceleration_horizontal__forces_horizontal (vehicle_mass forces_horizontal : ℝ) (h0 : 0
    < vehicle_mass) :
    HasDerivAt (fun t => out_acceleration_horizontal vehicle_mass t) (J_acceleration_horizontal__forces_horizontal vehicle_mass) forces_horizontal := by
  simp only [out_acceleration_horizontal, J_acceleration_horizontal__forces_horizontal, a_h]
  (apply hasDerivAt_of_eq; on_goal 1 => (repeat' comp_step))
  all_goals try comp_side
  all_goals try simp only [mul_zero, zero_mul, add_zero, zero_add, sub_zero, zero_sub, mul_one, one_mul]
  all_goals try push_cast
  all_goals comp_eq

theorem d_acceleration_vertical__vehicle_mass (vehicle_mass forces_vertical : ℝ) (h0 : 0 <
    vehicle_mass) :
    HasDerivAt (fun t => out_acceleration_vertical t forces_vertical) (J_acceleration_vertical__vehicle_mass vehicle_mass forces_vertical) vehicle_mass := by
  simp only [out_acceleration_vertical, J_acceleration_vertical__vehicle_mass, m2, a_v]
  (apply hasDerivAt_of_eq; on_goal 1 => (repeat' comp_step))
  all_goals try comp_side
  all_goals try simp only [mul_zero, zero_mul, add_zero, zero_add, sub_zero, zero_sub, mul_one, one_mul]
  all_goals try push_cast
  all_goals comp_eq

theorem d_acceleration_vertical__forces_vertical (vehicle_mass forces_vertical : ℝ) (h0 : 0 <
    vehicle_mass) :
    HasDerivAt (fun t => out_acceleration_vertical vehicle_mass t) (J_acceleration_vertical__forces_vertical vehicle_mass) forces_vertical := by
  simp only [out_acceleration_vertical, J_acceleration_vertical__forces_vertical, a_v]
  (apply hasDerivAt_of_eq; on_goal 1 => (repeat' comp_step))
  all_goals try comp_side
  all_goals try simp only [mul_zero, zero_mul, add_zero, zero_add, sub_zero, zero_sub, mul_one, one_mul]
  all_goals try push_cast
  all_goals comp_eq

/-- Every partial derivative set by `Accelerations` is the derivative of its output. -/
theorem partials (vehicle_mass forces_horizontal forces_vertical : ℝ) (h0 : 0 < vehicle_mass) :
    HasDerivAt (fun t => out_acceleration_horizontal t forces_horizontal)
      (J_acceleration_horizontal__vehicle_mass vehicle_mass forces_horizontal) vehicle_mass ∧
    HasDerivAt (fun t => out_acceleration_horizontal vehicle_mass t)
      (J_acceleration_horizontal__forces_horizontal vehicle_mass) forces_horizontal ∧
    HasDerivAt (fun t => out_acceleration_vertical t forces_vertical)
      (J_acceleration_vertical__vehicle_mass vehicle_mass forces_vertical) vehicle_mass ∧
    HasDerivAt (fun t => out_acceleration_vertical vehicle_mass t)
      (J_acceleration_vertical__forces_vertical vehicle_mass) forces_vertical :=
  ⟨d_acceleration_horizontal__vehicle_mass _ _ h0, d_acceleration_horizontal__forces_horizontal _
    _ h0, d_acceleration_vertical__vehicle_mass _ _ h0, d_acceleration_vertical__forces_vertical _
    _ h0⟩

example : ∃ vehicle_mass forces_horizontal forces_vertical : ℝ,
      0 < vehicle_mass :=
  ⟨1, 0, 0, by comp_example⟩

end Verif.Comp.MissionEnergyStateOdeTakeoffEom.Accelerations

namespace Verif.Comp.MissionEnergyStateOdeTakeoffEom.ClimbGradientForces
open Real

/-- aviary/mission/energy_state/ode/takeoff_eom.py:822 -/
noncomputable def weight (gravity vehicle_mass : ℝ) : ℝ := vehicle_mass * gravity

/-- aviary/mission/energy_state/ode/takeoff_eom.py:827 -/
noncomputable def angle (takeoff_angle_of_attack_runway takeoff_thrust_incidence vehicle_angle_of_attack : ℝ) : ℝ :=
  (vehicle_angle_of_attack - takeoff_angle_of_attack_runway) + takeoff_thrust_incidence

/-- aviary/mission/energy_state/ode/takeoff_eom.py:829 -/
noncomputable def c_angle (takeoff_angle_of_attack_runway takeoff_thrust_incidence vehicle_angle_of_attack : ℝ) : ℝ :=
  cos (angle takeoff_angle_of_attack_runway takeoff_thrust_incidence vehicle_angle_of_attack)

/-- aviary/mission/energy_state/ode/takeoff_eom.py:830 -/
noncomputable def s_angle (takeoff_angle_of_attack_runway takeoff_thrust_incidence vehicle_angle_of_attack : ℝ) : ℝ :=
  sin (angle takeoff_angle_of_attack_runway takeoff_thrust_incidence vehicle_angle_of_attack)

/-- aviary/mission/energy_state/ode/takeoff_eom.py:832 -/
noncomputable def c_gamma (mission_flight_path_angle : ℝ) : ℝ := cos mission_flight_path_angle

/-- aviary/mission/energy_state/ode/takeoff_eom.py:833 -/
noncomputable def s_gamma (mission_flight_path_angle : ℝ) : ℝ := sin mission_flight_path_angle

/-- aviary/mission/energy_state/ode/takeoff_eom.py:837 -/
noncomputable def f_h (takeoff_angle_of_attack_runway takeoff_thrust_incidence gravity vehicle_mass vehicle_propulsion_thrust_total vehicle_drag vehicle_angle_of_attack mission_flight_path_angle : ℝ) : ℝ :=
  ((-vehicle_drag) - ((weight gravity vehicle_mass) * (s_gamma mission_flight_path_angle))) +
    (vehicle_propulsion_thrust_total * (c_angle takeoff_angle_of_attack_runway
    takeoff_thrust_incidence vehicle_angle_of_attack))

/-- aviary/mission/energy_state/ode/takeoff_eom.py:840 -/
noncomputable def f_v (takeoff_angle_of_attack_runway takeoff_thrust_incidence gravity vehicle_mass vehicle_lift vehicle_propulsion_thrust_total vehicle_angle_of_attack mission_flight_path_angle : ℝ) : ℝ :=
  (vehicle_lift - ((weight gravity vehicle_mass) * (c_gamma mission_flight_path_angle))) +
    (vehicle_propulsion_thrust_total * (s_angle takeoff_angle_of_attack_runway
    takeoff_thrust_incidence vehicle_angle_of_attack))

/-- Output `climb_gradient_forces_horizontal` of `ClimbGradientForces.compute`, aviary/mission/energy_state/ode/takeoff_eom.py:838 -/
noncomputable def out_climb_gradient_forces_horizontal (takeoff_angle_of_attack_runway takeoff_thrust_incidence gravity vehicle_mass vehicle_propulsion_thrust_total vehicle_drag vehicle_angle_of_attack mission_flight_path_angle : ℝ) : ℝ :=
  f_h takeoff_angle_of_attack_runway takeoff_thrust_incidence gravity vehicle_mass
    vehicle_propulsion_thrust_total vehicle_drag vehicle_angle_of_attack
    mission_flight_path_angle

/-- Output `climb_gradient_forces_vertical` of `ClimbGradientForces.compute`, aviary/mission/energy_state/ode/takeoff_eom.py:841 -/
noncomputable def out_climb_gradient_forces_vertical (takeoff_angle_of_attack_runway takeoff_thrust_incidence gravity vehicle_mass vehicle_lift vehicle_propulsion_thrust_total vehicle_angle_of_attack mission_flight_path_angle : ℝ) : ℝ :=
  f_v takeoff_angle_of_attack_runway takeoff_thrust_incidence gravity vehicle_mass vehicle_lift
    vehicle_propulsion_thrust_total vehicle_angle_of_attack mission_flight_path_angle

/-- Partial of `climb_gradient_forces_horizontal` with respect to `vehicle_drag` as set by `ClimbGradientForces`, aviary/mission/energy_state/ode/takeoff_eom.py:788 -/
noncomputable def J_climb_gradient_forces_horizontal__vehicle_drag : ℝ := -1

/-- Partial of `climb_gradient_forces_vertical` with respect to `vehicle_lift` as set by `ClimbGradientForces`, aviary/mission/energy_state/ode/takeoff_eom.py:804 -/
noncomputable def J_climb_gradient_forces_vertical__vehicle_lift : ℝ := 1

/-- Partial of `climb_gradient_forces_horizontal` with respect to `vehicle_mass` as set by `ClimbGradientForces`, aviary/mission/energy_state/ode/takeoff_eom.py:867 -/
noncomputable def J_climb_gradient_forces_horizontal__vehicle_mass (gravity mission_flight_path_angle : ℝ) : ℝ :=
  (-gravity) * (s_gamma mission_flight_path_angle)

/-- Partial of `climb_gradient_forces_vertical` with respect to `vehicle_mass` as set by `ClimbGradientForces`, aviary/mission/energy_state/ode/takeoff_eom.py:868 -/
noncomputable def J_climb_gradient_forces_vertical__vehicle_mass (gravity mission_flight_path_angle : ℝ) : ℝ :=
  (-gravity) * (c_gamma mission_flight_path_angle)

/-- Partial of `climb_gradient_forces_horizontal` with respect to `vehicle_propulsion_thrust_total` as set by `ClimbGradientForces`, aviary/mission/energy_state/ode/takeoff_eom.py:870 -/
noncomputable def J_climb_gradient_forces_horizontal__vehicle_propulsion_thrust_total (takeoff_angle_of_attack_runway takeoff_thrust_incidence vehicle_angle_of_attack : ℝ) : ℝ :=
  c_angle takeoff_angle_of_attack_runway takeoff_thrust_incidence vehicle_angle_of_attack

/-- Partial of `climb_gradient_forces_vertical` with respect to `vehicle_propulsion_thrust_total` as set by `ClimbGradientForces`, aviary/mission/energy_state/ode/takeoff_eom.py:871 -/
noncomputable def J_climb_gradient_forces_vertical__vehicle_propulsion_thrust_total (takeoff_angle_of_attack_runway takeoff_thrust_incidence vehicle_angle_of_attack : ℝ) : ℝ :=
  s_angle takeoff_angle_of_attack_runway takeoff_thrust_incidence vehicle_angle_of_attack

/-- Partial of `climb_gradient_forces_horizontal` with respect to `vehicle_angle_of_attack` as set by `ClimbGradientForces`, aviary/mission/energy_state/ode/takeoff_eom.py:873 -/
noncomputable def J_climb_gradient_forces_horizontal__vehicle_angle_of_attack (takeoff_angle_of_attack_runway takeoff_thrust_incidence vehicle_propulsion_thrust_total vehicle_angle_of_attack : ℝ) : ℝ :=
  (-vehicle_propulsion_thrust_total) * (s_angle takeoff_angle_of_attack_runway
    takeoff_thrust_incidence vehicle_angle_of_attack)

/-- Partial of `climb_gradient_forces_vertical` with respect to `vehicle_angle_of_attack` as set by `ClimbGradientForces`, aviary/mission/energy_state/ode/takeoff_eom.py:874 -/
noncomputable def J_climb_gradient_forces_vertical__vehicle_angle_of_attack (takeoff_angle_of_attack_runway takeoff_thrust_incidence vehicle_propulsion_thrust_total vehicle_angle_of_attack : ℝ) : ℝ :=
  vehicle_propulsion_thrust_total * (c_angle takeoff_angle_of_attack_runway
    takeoff_thrust_incidence vehicle_angle_of_attack)

/-- Partial of `climb_gradient_forces_horizontal` with respect to `mission_flight_path_angle` as set by `ClimbGradientForces`, aviary/mission/energy_state/ode/takeoff_eom.py:876 -/
noncomputable def J_climb_gradient_forces_horizontal__mission_flight_path_angle (gravity vehicle_mass mission_flight_path_angle : ℝ) : ℝ :=
  (-(weight gravity vehicle_mass)) * (c_gamma mission_flight_path_angle)

/-- Partial of `climb_gradient_forces_vertical` with respect to `mission_flight_path_angle` as set by `ClimbGradientForces`, aviary/mission/energy_state/ode/takeoff_eom.py:877 -/
noncomputable def J_climb_gradient_forces_vertical__mission_flight_path_angle (gravity vehicle_mass mission_flight_path_angle : ℝ) : ℝ :=
  (weight gravity vehicle_mass) * (s_gamma mission_flight_path_angle)

theorem d_climb_gradient_forces_horizontal__vehicle_mass (takeoff_angle_of_attack_runway
    takeoff_thrust_incidence gravity vehicle_mass vehicle_propulsion_thrust_total vehicle_drag
    vehicle_angle_of_attack mission_flight_path_angle : ℝ)  :
    HasDerivAt (fun t => out_climb_gradient_forces_horizontal takeoff_angle_of_attack_runway takeoff_thrust_incidence gravity t vehicle_propulsion_thrust_total vehicle_drag vehicle_angle_of_attack mission_flight_path_angle) (J_climb_gradient_forces_horizontal__vehicle_mass gravity mission_flight_path_angle) vehicle_mass := by
  simp only [out_climb_gradient_forces_horizontal, J_climb_gradient_forces_horizontal__vehicle_mass, f_h, c_angle, angle, s_gamma, weight]
  (apply hasDerivAt_of_eq; on_goal 1 => (repeat' comp_step))
  all_goals try comp_side
  all_goals try simp only [mul_zero, zero_mul, add_zero, zero_add, sub_zero, zero_sub, mul_one, one_mul]
  all_goals try push_cast
  all_goals comp_eq

theorem d_climb_gradient_forces_horizontal__vehicle_propulsion_thrust_total
    (takeoff_angle_of_attack_runway takeoff_thrust_incidence gravity vehicle_mass
    vehicle_propulsion_thrust_total vehicle_drag vehicle_angle_of_attack mission_flight_path_angle
    : ℝ)  :
    HasDerivAt (fun t => out_climb_gradient_forces_horizontal takeoff_angle_of_attack_runway takeoff_thrust_incidence gravity vehicle_mass t vehicle_drag vehicle_angle_of_attack mission_flight_path_angle) (J_climb_gradient_forces_horizontal__vehicle_propulsion_thrust_total takeoff_angle_of_attack_runway takeoff_thrust_incidence vehicle_angle_of_attack) vehicle_propulsion_thrust_total := by
  simp only [out_climb_gradient_forces_horizontal, J_climb_gradient_forces_horizontal__vehicle_propulsion_thrust_total, f_h, c_angle, angle, s_gamma, weight]
  (apply hasDerivAt_of_eq; on_goal 1 => (repeat' comp_step))
  all_goals try comp_side
  all_goals try simp only [mul_zero, zero_mul, add_zero, zero_add, sub_zero, zero_sub, mul_one, one_mul]
  all_goals try push_cast
  all_goals comp_eq

theorem d_climb_gradient_forces_horizontal__vehicle_drag (takeoff_angle_of_attack_runway
    takeoff_thrust_incidence gravity vehicle_mass vehicle_propulsion_thrust_total vehicle_drag
    vehicle_angle_of_attack mission_flight_path_angle : ℝ)  :
    HasDerivAt (fun t => out_climb_gradient_forces_horizontal takeoff_angle_of_attack_runway takeoff_thrust_incidence gravity vehicle_mass vehicle_propulsion_thrust_total t vehicle_angle_of_attack mission_flight_path_angle) (J_climb_gradient_forces_horizontal__vehicle_drag) vehicle_drag := by
  simp only [out_climb_gradient_forces_horizontal, J_climb_gradient_forces_horizontal__vehicle_drag, f_h, c_angle, angle, s_gamma, weight]
  (apply hasDerivAt_of_eq; on_goal 1 => (repeat' comp_step))
  all_goals try comp_side
  all_goals try simp only [mul_zero, zero_mul, add_zero, zero_add, sub_zero, zero_sub, mul_one, one_mul]
  all_goals try push_cast
  all_goals comp_eq

theorem d_climb_gradient_forces_horizontal__vehicle_angle_of_attack
    (takeoff_angle_of_attack_runway takeoff_thrust_incidence gravity vehicle_mass
    vehicle_propulsion_thrust_total vehicle_drag vehicle_angle_of_attack mission_flight_path_angle
    : ℝ)  :
    HasDerivAt (fun t => out_climb_gradient_forces_horizontal takeoff_angle_of_attack_runway takeoff_thrust_incidence gravity vehicle_mass vehicle_propulsion_thrust_total vehicle_drag t mission_flight_path_angle) (J_climb_gradient_forces_horizontal__vehicle_angle_of_attack takeoff_angle_of_attack_runway takeoff_thrust_incidence vehicle_propulsion_thrust_total vehicle_angle_of_attack) vehicle_angle_of_attack := by
  simp only [out_climb_gradient_forces_horizontal, J_climb_gradient_forces_horizontal__vehicle_angle_of_attack, s_angle, f_h, c_angle, angle, s_gamma, weight]
  (apply hasDerivAt_of_eq; on_goal 1 => (repeat' comp_step))
  all_goals try comp_side
  all_goals try simp only [mul_zero, zero_mul, add_zero, zero_add, sub_zero, zero_sub, mul_one, one_mul]
  all_goals try push_cast
  all_goals comp_eq

theorem d_climb_gradient_forces_horizontal__mission_flight_path_angle
    (takeoff_angle_of_attack_runway takeoff_thrust_incidence gravity vehicle_mass
    vehicle_propulsion_thrust_total vehicle_drag vehicle_angle_of_attack mission_flight_path_angle
    : ℝ)  :
    HasDerivAt (fun t => out_climb_gradient_forces_horizontal takeoff_angle_of_attack_runway takeoff_thrust_incidence gravity vehicle_mass vehicle_propulsion_thrust_total vehicle_drag vehicle_angle_of_attack t) (J_climb_gradient_forces_horizontal__mission_flight_path_angle gravity vehicle_mass mission_flight_path_angle) mission_flight_path_angle := by
  simp only [out_climb_gradient_forces_horizontal, J_climb_gradient_forces_horizontal__mission_flight_path_angle, c_gamma, f_h, c_angle, angle, s_gamma, weight]
  (apply hasDerivAt_of_eq; on_goal 1 => (repeat' comp_step))
  all_goals try comp_side
  all_goals try simp only [mul_zero, zero_mul, add_zero, zero_add, sub_zero, zero_sub, mul_one, one_mul]
  all_goals try push_cast
  all_goals comp_eq

theorem d_climb_gradient_forces_vertical__vehicle_mass (takeoff_angle_of_attack_runway
    takeoff_thrust_incidence gravity vehicle_mass vehicle_lift vehicle_propulsion_thrust_total
    vehicle_angle_of_attack mission_flight_path_angle : ℝ)  :
    HasDerivAt (fun t => out_climb_gradient_forces_vertical takeoff_angle_of_attack_runway takeoff_thrust_incidence gravity t vehicle_lift vehicle_propulsion_thrust_total vehicle_angle_of_attack mission_flight_path_angle) (J_climb_gradient_forces_vertical__vehicle_mass gravity mission_flight_path_angle) vehicle_mass := by
  simp only [out_climb_gradient_forces_vertical, J_climb_gradient_forces_vertical__vehicle_mass, f_v, s_angle, angle, c_gamma, weight]
  (apply hasDerivAt_of_eq; on_goal 1 => (repeat' comp_step))
  all_goals try comp_side
  all_goals try simp only [mul_zero, zero_mul, add_zero, zero_add, sub_zero, zero_sub, mul_one, one_mul]
  all_goals try push_cast
  all_goals comp_eq

theorem d_climb_gradient_forces_vertical__vehicle_lift (takeoff_angle_of_attack_runway
    takeoff_thrust_incidence gravity vehicle_mass vehicle_lift vehicle_propulsion_thrust_total
    vehicle_angle_of_attack mission_flight_path_angle : ℝ)  :
    HasDerivAt (fun t => out_climb_gradient_forces_vertical takeoff_angle_of_attack_runway takeoff_thrust_incidence gravity vehicle_mass t vehicle_propulsion_thrust_total vehicle_angle_of_attack mission_flight_path_angle) (J_climb_gradient_forces_vertical__vehicle_lift) vehicle_lift := by
  simp only [out_climb_gradient_forces_vertical, J_climb_gradient_forces_vertical__vehicle_lift, f_v, s_angle, angle, c_gamma, weight]
  (apply hasDerivAt_of_eq; on_goal 1 => (repeat' comp_step))
  all_goals try comp_side
  all_goals try simp only [mul_zero, zero_mul, add_zero, zero_add, sub_zero, zero_sub, mul_one, one_mul]
  all_goals try push_cast
  all_goals comp_eq

theorem d_climb_gradient_forces_vertical__vehicle_propulsion_thrust_total
    (takeoff_angle_of_attack_runway takeoff_thrust_incidence gravity vehicle_mass vehicle_lift
    vehicle_propulsion_thrust_total vehicle_angle_of_attack mission_flight_path_angle : ℝ)  :
    HasDerivAt (fun t => out_climb_gradient_forces_vertical takeoff_angle_of_attack_runway takeoff_thrust_incidence gravity vehicle_mass vehicle_lift t vehicle_angle_of_attack mission_flight_path_angle) (J_climb_gradient_forces_vertical__vehicle_propulsion_thrust_total takeoff_angle_of_attack_runway takeoff_thrust_incidence vehicle_angle_of_attack) vehicle_propulsion_thrust_total := by
  simp only [out_climb_gradient_forces_vertical, J_climb_gradient_forces_vertical__vehicle_propulsion_thrust_total, f_v, s_angle, angle, c_gamma, weight]
  (apply hasDerivAt_of_eq; on_goal 1 => (repeat' comp_step))
  all_goals try comp_side
  all_goals try simp only [mul_zero, zero_mul, add_zero, zero_add, sub_zero, zero_sub, mul_one, one_mul]
  all_goals try push_cast
  all_goals comp_eq

theorem d_climb_gradient_forces_vertical__vehicle_angle_of_attack (takeoff_angle_of_attack_runway
    takeoff_thrust_incidence gravity vehicle_mass vehicle_lift vehicle_propulsion_thrust_total
    vehicle_angle_of_attack mission_flight_path_angle : ℝ)  :
    HasDerivAt (fun t => out_climb_gradient_forces_vertical takeoff_angle_of_attack_runway takeoff_thrust_incidence gravity vehicle_mass vehicle_lift vehicle_propulsion_thrust_total t mission_flight_path_angle) (J_climb_gradient_forces_vertical__vehicle_angle_of_attack takeoff_angle_of_attack_runway takeoff_thrust_incidence vehicle_propulsion_thrust_total vehicle_angle_of_attack) vehicle_angle_of_attack := by
  simp only [out_climb_gradient_forces_vertical, J_climb_gradient_forces_vertical__vehicle_angle_of_attack, c_angle, f_v, s_angle, angle, c_gamma, weight]
  (apply hasDerivAt_of_eq; on_goal 1 => (repeat' comp_step))
  all_goals try comp_side
  all_goals try simp only [mul_zero, zero_mul, add_zero, zero_add, sub_zero, zero_sub, mul_one, one_mul]
  all_goals try push_cast
  all_goals comp_eq

theorem d_climb_gradient_forces_vertical__mission_flight_path_angle
    (takeoff_angle_of_attack_runway takeoff_thrust_incidence gravity vehicle_mass vehicle_lift
    vehicle_propulsion_thrust_total vehicle_angle_of_attack mission_flight_path_angle : ℝ)  :
    HasDerivAt (fun t => out_climb_gradient_forces_vertical takeoff_angle_of_attack_runway takeoff_thrust_incidence gravity vehicle_mass vehicle_lift vehicle_propulsion_thrust_total vehicle_angle_of_attack t) (J_climb_gradient_forces_vertical__mission_flight_path_angle gravity vehicle_mass mission_flight_path_angle) mission_flight_path_angle := by
  simp only [out_climb_gradient_forces_vertical, J_climb_gradient_forces_vertical__mission_flight_path_angle, s_gamma, f_v, s_angle, angle, c_gamma, weight]
  (apply hasDerivAt_of_eq; on_goal 1 => (repeat' comp_step))
  all_goals try comp_side
  all_goals try simp only [mul_zero, zero_mul, add_zero, zero_add, sub_zero, zero_sub, mul_one, one_mul]
  all_goals try push_cast
  all_goals comp_eq

/-- Every partial derivative set by `ClimbGradientForces` is the derivative of its output. -/
theorem partials (takeoff_angle_of_attack_runway takeoff_thrust_incidence gravity vehicle_mass
    vehicle_lift vehicle_propulsion_thrust_total vehicle_drag vehicle_angle_of_attack
    mission_flight_path_angle : ℝ) :
    HasDerivAt (fun t => out_climb_gradient_forces_horizontal takeoff_angle_of_attack_runway
      takeoff_thrust_incidence gravity t vehicle_propulsion_thrust_total vehicle_drag
      vehicle_angle_of_attack mission_flight_path_angle)
      (J_climb_gradient_forces_horizontal__vehicle_mass gravity mission_flight_path_angle)
      vehicle_mass ∧
    HasDerivAt (fun t => out_climb_gradient_forces_horizontal takeoff_angle_of_attack_runway
      takeoff_thrust_incidence gravity vehicle_mass t vehicle_drag vehicle_angle_of_attack
      mission_flight_path_angle)
      (J_climb_gradient_forces_horizontal__vehicle_propulsion_thrust_total
      takeoff_angle_of_attack_runway takeoff_thrust_incidence vehicle_angle_of_attack)
      vehicle_propulsion_thrust_total ∧
    HasDerivAt (fun t => out_climb_gradient_forces_horizontal takeoff_angle_of_attack_runway
      takeoff_thrust_incidence gravity vehicle_mass vehicle_propulsion_thrust_total t
      vehicle_angle_of_attack mission_flight_path_angle)
      (J_climb_gradient_forces_horizontal__vehicle_drag) vehicle_drag ∧
    HasDerivAt (fun t => out_climb_gradient_forces_horizontal takeoff_angle_of_attack_runway
      takeoff_thrust_incidence gravity vehicle_mass vehicle_propulsion_thrust_total vehicle_drag t
      mission_flight_path_angle) (J_climb_gradient_forces_horizontal__vehicle_angle_of_attack
      takeoff_angle_of_attack_runway takeoff_thrust_incidence vehicle_propulsion_thrust_total
      vehicle_angle_of_attack) vehicle_angle_of_attack ∧
    HasDerivAt (fun t => out_climb_gradient_forces_horizontal takeoff_angle_of_attack_runway
      takeoff_thrust_incidence gravity vehicle_mass vehicle_propulsion_thrust_total vehicle_drag
      vehicle_angle_of_attack t) (J_climb_gradient_forces_horizontal__mission_flight_path_angle
      gravity vehicle_mass mission_flight_path_angle) mission_flight_path_angle ∧
    HasDerivAt (fun t => out_climb_gradient_forces_vertical takeoff_angle_of_attack_runway
      takeoff_thrust_incidence gravity t vehicle_lift vehicle_propulsion_thrust_total
      vehicle_angle_of_attack mission_flight_path_angle)
      (J_climb_gradient_forces_vertical__vehicle_mass gravity mission_flight_path_angle)
      vehicle_mass ∧
    HasDerivAt (fun t => out_climb_gradient_forces_vertical takeoff_angle_of_attack_runway
      takeoff_thrust_incidence gravity vehicle_mass t vehicle_propulsion_thrust_total
      vehicle_angle_of_attack mission_flight_path_angle)
      (J_climb_gradient_forces_vertical__vehicle_lift) vehicle_lift ∧
    HasDerivAt (fun t => out_climb_gradient_forces_vertical takeoff_angle_of_attack_runway
      takeoff_thrust_incidence gravity vehicle_mass vehicle_lift t vehicle_angle_of_attack
      mission_flight_path_angle)
      (J_climb_gradient_forces_vertical__vehicle_propulsion_thrust_total
      takeoff_angle_of_attack_runway takeoff_thrust_incidence vehicle_angle_of_attack)
      vehicle_propulsion_thrust_total ∧
    HasDerivAt (fun t => out_climb_gradient_forces_vertical takeoff_angle_of_attack_runway
      takeoff_thrust_incidence gravity vehicle_mass vehicle_lift vehicle_propulsion_thrust_total t
      mission_flight_path_angle) (J_climb_gradient_forces_vertical__vehicle_angle_of_attack
      takeoff_angle_of_attack_runway takeoff_thrust_incidence vehicle_propulsion_thrust_total
      vehicle_angle_of_attack) vehicle_angle_of_attack ∧
    HasDerivAt (fun t => out_climb_gradient_forces_vertical takeoff_angle_of_attack_runway
      takeoff_thrust_incidence gravity vehicle_mass vehicle_lift vehicle_propulsion_thrust_total
      vehicle_angle_of_attack t) (J_climb_gradient_forces_vertical__mission_flight_path_angle
      gravity vehicle_mass mission_flight_path_angle) mission_flight_path_angle :=
  ⟨d_climb_gradient_forces_horizontal__vehicle_mass _ _ _ _ _ _ _ _,
    d_climb_gradient_forces_horizontal__vehicle_propulsion_thrust_total _ _ _ _ _ _ _ _,
    d_climb_gradient_forces_horizontal__vehicle_drag _ _ _ _ _ _ _ _,
    d_climb_gradient_forces_horizontal__vehicle_angle_of_attack _ _ _ _ _ _ _ _,
    d_climb_gradient_forces_horizontal__mission_flight_path_angle _ _ _ _ _ _ _ _,
    d_climb_gradient_forces_vertical__vehicle_mass _ _ _ _ _ _ _ _,
    d_climb_gradient_forces_vertical__vehicle_lift _ _ _ _ _ _ _ _,
    d_climb_gradient_forces_vertical__vehicle_propulsion_thrust_total _ _ _ _ _ _ _ _,
    d_climb_gradient_forces_vertical__vehicle_angle_of_attack _ _ _ _ _ _ _ _,
    d_climb_gradient_forces_vertical__mission_flight_path_angle _ _ _ _ _ _ _ _⟩

end Verif.Comp.MissionEnergyStateOdeTakeoffEom.ClimbGradientForces

namespace Verif.Comp.MissionEnergyStateOdeTakeoffEom.DistanceRates_climbing
open Real

/-- aviary/mission/energy_state/ode/takeoff_eom.py:239 -/
noncomputable def cgam (mission_flight_path_angle : ℝ) : ℝ := cos mission_flight_path_angle

/-- aviary/mission/energy_state/ode/takeoff_eom.py:240 -/
noncomputable def range_rate (mission_velocity mission_flight_path_angle : ℝ) : ℝ :=
  (cgam mission_flight_path_angle) * mission_velocity

/-- aviary/mission/energy_state/ode/takeoff_eom.py:242 -/
noncomputable def sgam (mission_flight_path_angle : ℝ) : ℝ := sin mission_flight_path_angle

/-- aviary/mission/energy_state/ode/takeoff_eom.py:243 -/
noncomputable def altitude_rate (mission_velocity mission_flight_path_angle : ℝ) : ℝ :=
  (sgam mission_flight_path_angle) * mission_velocity

/-- Output `mission_altitude_rate` of `DistanceRates.compute`, aviary/mission/energy_state/ode/takeoff_eom.py:245 -/
noncomputable def out_mission_altitude_rate (mission_velocity mission_flight_path_angle : ℝ) : ℝ :=
  altitude_rate mission_velocity mission_flight_path_angle

/-- Output `mission_distance_rate` of `DistanceRates.compute`, aviary/mission/energy_state/ode/takeoff_eom.py:250 -/
noncomputable def out_mission_distance_rate (mission_velocity mission_flight_path_angle : ℝ) : ℝ :=
  range_rate mission_velocity mission_flight_path_angle

/-- Partial of `mission_distance_rate` with respect to `mission_flight_path_angle` as set by `DistanceRates`, aviary/mission/energy_state/ode/takeoff_eom.py:260 -/
noncomputable def J_mission_distance_rate__mission_flight_path_angle (mission_velocity mission_flight_path_angle : ℝ) : ℝ :=
  (-(sgam mission_flight_path_angle)) * mission_velocity

/-- Partial of `mission_distance_rate` with respect to `mission_velocity` as set by `DistanceRates`, aviary/mission/energy_state/ode/takeoff_eom.py:261 -/
noncomputable def J_mission_distance_rate__mission_velocity (mission_flight_path_angle : ℝ) : ℝ :=
  cgam mission_flight_path_angle

/-- Partial of `mission_altitude_rate` with respect to `mission_flight_path_angle` as set by `DistanceRates`, aviary/mission/energy_state/ode/takeoff_eom.py:263 -/
noncomputable def J_mission_altitude_rate__mission_flight_path_angle (mission_velocity mission_flight_path_angle : ℝ) : ℝ :=
  (cgam mission_flight_path_angle) * mission_velocity

/-- Partial of `mission_altitude_rate` with respect to `mission_velocity` as set by `DistanceRates`, aviary/mission/energy_state/ode/takeoff_eom.py:264 -/
noncomputable def J_mission_altitude_rate__mission_velocity (mission_flight_path_angle : ℝ) : ℝ :=
  sgam mission_flight_path_angle

theorem d_mission_altitude_rate__mission_velocity (mission_velocity mission_flight_path_angle : ℝ)
    :
    HasDerivAt (fun t => out_mission_altitude_rate t mission_flight_path_angle) (J_mission_altitude_rate__mission_velocity mission_flight_path_angle) mission_velocity := by
  simp only [out_mission_altitude_rate, J_mission_altitude_rate__mission_velocity, altitude_rate, sgam]
  (apply hasDerivAt_of_eq; on_goal 1 => (repeat' comp_step))
  all_goals try comp_side
  all_goals try simp only [mul_zero, zero_mul, add_zero, zero_add, sub_zero, zero_sub, mul_one, one_mul]
  all_goals try push_cast
  all_goals comp_eq

theorem d_mission_altitude_rate__mission_flight_path_angle (mission_velocity
    mission_flight_path_angle : ℝ)  :
    HasDerivAt (fun t => out_mission_altitude_rate mission_velocity t) (J_mission_altitude_rate__mission_flight_path_angle mission_velocity mission_flight_path_angle) mission_flight_path_angle := by
  simp only [out_mission_altitude_rate, J_mission_altitude_rate__mission_flight_path_angle, cgam, altitude_rate, sgam]
  (apply hasDerivAt_of_eq; on_goal 1 => (repeat' comp_step))
  all_goals try comp_side
  all_goals try simp only [mul_zero, zero_mul, add_zero, zero_add, sub_zero, zero_sub, mul_one, one_mul]
  all_goals try push_cast
  all_goals comp_eq

theorem d_mission_distance_rate__mission_velocity (mission_velocity mission_flight_path_angle : ℝ)
    :
    HasDerivAt (fun t => out_mission_distance_rate t mission_flight_path_angle) (J_mission_distance_rate__mission_velocity mission_flight_path_angle) mission_velocity := by
  simp only [out_mission_distance_rate, J_mission_distance_rate__mission_velocity, range_rate, cgam]
  (apply hasDerivAt_of_eq; on_goal 1 => (repeat' comp_step))
  all_goals try comp_side
  all_goals try simp only [mul_zero, zero_mul, add_zero, zero_add, sub_zero, zero_sub, mul_one, one_mul]
  all_goals try push_cast
  all_goals comp_eq

theorem d_mission_distance_rate__mission_flight_path_angle (mission_velocity
    mission_flight_path_angle : ℝ)  :
    HasDerivAt (fun t => out_mission_distance_rate mission_velocity t) (J_mission_distance_rate__mission_flight_path_angle mission_velocity mission_flight_path_angle) mission_flight_path_angle := by
  simp only [out_mission_distance_rate, J_mission_distance_rate__mission_flight_path_angle, sgam, range_rate, cgam]
  (apply hasDerivAt_of_eq; on_goal 1 => (repeat' comp_step))
  all_goals try comp_side
  all_goals try simp only [mul_zero, zero_mul, add_zero, zero_add, sub_zero, zero_sub, mul_one, one_mul]
  all_goals try push_cast
  all_goals comp_eq

/-- Every partial derivative set by `DistanceRates` is the derivative of its output. -/
theorem partials (mission_velocity mission_flight_path_angle : ℝ) :
    HasDerivAt (fun t => out_mission_altitude_rate t mission_flight_path_angle)
      (J_mission_altitude_rate__mission_velocity mission_flight_path_angle) mission_velocity ∧
    HasDerivAt (fun t => out_mission_altitude_rate mission_velocity t)
      (J_mission_altitude_rate__mission_flight_path_angle mission_velocity
      mission_flight_path_angle) mission_flight_path_angle ∧
    HasDerivAt (fun t => out_mission_distance_rate t mission_flight_path_angle)
      (J_mission_distance_rate__mission_velocity mission_flight_path_angle) mission_velocity ∧
    HasDerivAt (fun t => out_mission_distance_rate mission_velocity t)
      (J_mission_distance_rate__mission_flight_path_angle mission_velocity
      mission_flight_path_angle) mission_flight_path_angle :=
  ⟨d_mission_altitude_rate__mission_velocity _ _,
    d_mission_altitude_rate__mission_flight_path_angle _ _,
    d_mission_distance_rate__mission_velocity _ _,
    d_mission_distance_rate__mission_flight_path_angle _ _⟩

end Verif.Comp.MissionEnergyStateOdeTakeoffEom.DistanceRates_climbing

namespace Verif.Comp.MissionEnergyStateOdeTakeoffEom.DistanceRates_no_climbing
open Real

/-- Output `mission_distance_rate` of `DistanceRates.compute`, aviary/mission/energy_state/ode/takeoff_eom.py:250 -/
noncomputable def out_mission_distance_rate (mission_velocity : ℝ) : ℝ := mission_velocity

/-- Partial of `mission_distance_rate` with respect to `mission_velocity` as set by `DistanceRates`, aviary/mission/energy_state/ode/takeoff_eom.py:225 -/
noncomputable def J_mission_distance_rate__mission_velocity : ℝ := 1

theorem d_mission_distance_rate__mission_velocity (mission_velocity : ℝ)  :
    HasDerivAt (fun t => out_mission_distance_rate t) (J_mission_distance_rate__mission_velocity) mission_velocity := by
  simp only [out_mission_distance_rate, J_mission_distance_rate__mission_velocity]
  (apply hasDerivAt_of_eq; on_goal 1 => (repeat' comp_step))
  all_goals try comp_side
  all_goals try simp only [mul_zero, zero_mul, add_zero, zero_add, sub_zero, zero_sub, mul_one, one_mul]
  all_goals try push_cast
  all_goals comp_eq

/-- Every partial derivative set by `DistanceRates` is the derivative of its output. -/
theorem partials (mission_velocity : ℝ) :
    HasDerivAt (fun t => out_mission_distance_rate t) (J_mission_distance_rate__mission_velocity)
      mission_velocity :=
  d_mission_distance_rate__mission_velocity _

end Verif.Comp.MissionEnergyStateOdeTakeoffEom.DistanceRates_no_climbing

namespace Verif.Comp.MissionEnergyStateOdeTakeoffEom.FlightPathAngleRate
open Real

/-- aviary/mission/energy_state/ode/takeoff_eom.py:475 -/
noncomputable def x_ (mission_distance_rate mission_altitude_rate acceleration_horizontal acceleration_vertical : ℝ) : ℝ :=
  ((acceleration_vertical * mission_distance_rate) - (acceleration_horizontal *
    mission_altitude_rate)) / ((mission_distance_rate ^ 2) + (mission_altitude_rate ^ 2))

/-- aviary/mission/energy_state/ode/takeoff_eom.py:485 -/
noncomputable def num (mission_distance_rate mission_altitude_rate acceleration_horizontal acceleration_vertical : ℝ) : ℝ :=
  (acceleration_vertical * mission_distance_rate) - (acceleration_horizontal *
    mission_altitude_rate)

/-- aviary/mission/energy_state/ode/takeoff_eom.py:486 -/
noncomputable def den (mission_distance_rate mission_altitude_rate : ℝ) : ℝ :=
  (mission_distance_rate ^ 2) + (mission_altitude_rate ^ 2)

/-- aviary/mission/energy_state/ode/takeoff_eom.py:488 -/
noncomputable def df_dvh (mission_distance_rate mission_altitude_rate acceleration_horizontal acceleration_vertical : ℝ) : ℝ :=
  (acceleration_vertical / (den mission_distance_rate mission_altitude_rate)) - ((((num
    mission_distance_rate mission_altitude_rate acceleration_horizontal acceleration_vertical) /
    ((den mission_distance_rate mission_altitude_rate) ^ 2)) * 2) * mission_distance_rate)

/-- aviary/mission/energy_state/ode/takeoff_eom.py:490 -/
noncomputable def df_dvv (mission_distance_rate mission_altitude_rate acceleration_horizontal acceleration_vertical : ℝ) : ℝ :=
  ((-acceleration_horizontal) / (den mission_distance_rate mission_altitude_rate)) - ((((num
    mission_distance_rate mission_altitude_rate acceleration_horizontal acceleration_vertical) /
    ((den mission_distance_rate mission_altitude_rate) ^ 2)) * 2) * mission_altitude_rate)

/-- aviary/mission/energy_state/ode/takeoff_eom.py:492 -/
noncomputable def df_dah (mission_distance_rate mission_altitude_rate : ℝ) : ℝ :=
  (-mission_altitude_rate) / (den mission_distance_rate mission_altitude_rate)

/-- aviary/mission/energy_state/ode/takeoff_eom.py:494 -/
noncomputable def df_dav (mission_distance_rate mission_altitude_rate : ℝ) : ℝ :=
  mission_distance_rate / (den mission_distance_rate mission_altitude_rate)

/-- Output `mission_flight_path_angle_rate` of `FlightPathAngleRate.compute`, aviary/mission/energy_state/ode/takeoff_eom.py:477 -/
noncomputable def out_mission_flight_path_angle_rate (mission_distance_rate mission_altitude_rate acceleration_horizontal acceleration_vertical : ℝ) : ℝ :=
  x_ mission_distance_rate mission_altitude_rate acceleration_horizontal acceleration_vertical

/-- Partial of `mission_flight_path_angle_rate` with respect to `mission_distance_rate` as set by `FlightPathAngleRate`, aviary/mission/energy_state/ode/takeoff_eom.py:496 -/
noncomputable def J_mission_flight_path_angle_rate__mission_distance_rate (mission_distance_rate mission_altitude_rate acceleration_horizontal acceleration_vertical : ℝ) : ℝ :=
  df_dvh mission_distance_rate mission_altitude_rate acceleration_horizontal
    acceleration_vertical

/-- Partial of `mission_flight_path_angle_rate` with respect to `mission_altitude_rate` as set by `FlightPathAngleRate`, aviary/mission/energy_state/ode/takeoff_eom.py:497 -/
noncomputable def J_mission_flight_path_angle_rate__mission_altitude_rate (mission_distance_rate mission_altitude_rate acceleration_horizontal acceleration_vertical : ℝ) : ℝ :=
  df_dvv mission_distance_rate mission_altitude_rate acceleration_horizontal
    acceleration_vertical

/-- Partial of `mission_flight_path_angle_rate` with respect to `acceleration_horizontal` as set by `FlightPathAngleRate`, aviary/mission/energy_state/ode/takeoff_eom.py:498 -/
noncomputable def J_mission_flight_path_angle_rate__acceleration_horizontal (mission_distance_rate mission_altitude_rate : ℝ) : ℝ :=
  df_dah mission_distance_rate mission_altitude_rate

/-- Partial of `mission_flight_path_angle_rate` with respect to `acceleration_vertical` as set by `FlightPathAngleRate`, aviary/mission/energy_state/ode/takeoff_eom.py:499 -/
noncomputable def J_mission_flight_path_angle_rate__acceleration_vertical (mission_distance_rate mission_altitude_rate : ℝ) : ℝ :=
  df_dav mission_distance_rate mission_altitude_rate

theorem d_mission_flight_path_angle_rate__mission_distance_rate (mission_distance_rate
    mission_altitude_rate acceleration_horizontal acceleration_vertical : ℝ) (h0 : 0 <
    mission_altitude_rate) :
    HasDerivAt (fun t => out_mission_flight_path_angle_rate t mission_altitude_rate acceleration_horizontal acceleration_vertical) (J_mission_flight_path_angle_rate__mission_distance_rate mission_distance_rate mission_altitude_rate acceleration_horizontal acceleration_vertical) mission_distance_rate := by
  simp only [out_mission_flight_path_angle_rate, J_mission_flight_path_angle_rate__mission_distance_rate, df_dvh, num, den, x_]
  (apply hasDerivAt_of_eq; on_goal 1 => (repeat' comp_step))
  all_goals try comp_side
  all_goals try simp only [mul_zero, zero_mul, add_zero, zero_add, sub_zero, zero_sub, mul_one, one_mul]
  all_goals try push_cast
  all_goals comp_eq

theorem d_mission_flight_path_angle_rate__mission_altitude_rate (mission_distance_rate
    mission_altitude_rate acceleration_horizontal acceleration_vertical : ℝ) (h0 : 0 <
    mission_altitude_rate) :
    HasDerivAt (fun t => out_mission_flight_path_angle_rate mission_distance_rate t acceleration_horizontal acceleration_vertical) (J_mission_flight_path_angle_rate__mission_altitude_rate mission_distance_rate mission_altitude_rate acceleration_horizontal acceleration_vertical) mission_altitude_rate := by
  simp only [out_mission_flight_path_angle_rate, J_mission_flight_path_angle_rate__mission_altitude_rate, df_dvv, num, den, x_]
  (apply hasDerivAt_of_eq; on_goal 1 => (repeat' comp_step))
  all_goals try comp_side
  all_goals try simp only [mul_zero, zero_mul, add_zero, zero_add, sub_zero, zero_sub, mul_one, one_mul]
  all_goals try push_cast
  all_goals comp_eq

theorem d_mission_flight_path_angle_rate__acceleration_horizontal (mission_distance_rate
    mission_altitude_rate acceleration_horizontal acceleration_vertical : ℝ) (h0 : 0 <
    mission_altitude_rate) :
    HasDerivAt (fun t => out_mission_flight_path_angle_rate mission_distance_rate mission_altitude_rate t acceleration_vertical) (J_mission_flight_path_angle_rate__acceleration_horizontal mission_distance_rate mission_altitude_rate) acceleration_horizontal := by
  simp only [out_mission_flight_path_angle_rate, J_mission_flight_path_angle_rate__acceleration_horizontal, df_dah, den, x_]
  (apply hasDerivAt_of_eq; on_goal 1 => (repeat' comp_step))
  all_goals try comp_side
  all_goals try simp only [mul_zero, zero_mul, add_zero, zero_add, sub_zero, zero_sub, mul_one, one_mul]
  all_goals try push_cast
  all_goals comp_eq

theorem d_mission_flight_path_angle_rate__acceleration_vertical (mission_distance_rate
    mission_altitude_rate acceleration_horizontal acceleration_vertical : ℝ) (h0 : 0 <
    mission_altitude_rate) :
    HasDerivAt (fun t => out_mission_flight_path_angle_rate mission_distance_rate mission_altitude_rate acceleration_horizontal t) (J_mission_flight_path_angle_rate__acceleration_vertical mission_distance_rate mission_altitude_rate) acceleration_vertical := by
  simp only [out_mission_flight_path_angle_rate, J_mission_flight_path_angle_rate__acceleration_vertical, df_dav, den, x_]
  (apply hasDerivAt_of_eq; on_goal 1 => (repeat' comp_step))
  all_goals try comp_side
  all_goals try simp only [mul_zero, zero_mul, add_zero, zero_add, sub_zero, zero_sub, mul_one, one_mul]
  all_goals try push_cast
  all_goals comp_eq

/-- Every partial derivative set by `FlightPathAngleRate` is the derivative of its output. -/
theorem partials (mission_distance_rate mission_altitude_rate acceleration_horizontal
    acceleration_vertical : ℝ) (h0 : 0 < mission_altitude_rate) :
    HasDerivAt (fun t => out_mission_flight_path_angle_rate t mission_altitude_rate
      acceleration_horizontal acceleration_vertical)
      (J_mission_flight_path_angle_rate__mission_distance_rate mission_distance_rate
      mission_altitude_rate acceleration_horizontal acceleration_vertical) mission_distance_rate ∧
    HasDerivAt (fun t => out_mission_flight_path_angle_rate mission_distance_rate t
      acceleration_horizontal acceleration_vertical)
      (J_mission_flight_path_angle_rate__mission_altitude_rate mission_distance_rate
      mission_altitude_rate acceleration_horizontal acceleration_vertical) mission_altitude_rate ∧
    HasDerivAt (fun t => out_mission_flight_path_angle_rate mission_distance_rate
      mission_altitude_rate t acceleration_vertical)
      (J_mission_flight_path_angle_rate__acceleration_horizontal mission_distance_rate
      mission_altitude_rate) acceleration_horizontal ∧
    HasDerivAt (fun t => out_mission_flight_path_angle_rate mission_distance_rate
      mission_altitude_rate acceleration_horizontal t)
      (J_mission_flight_path_angle_rate__acceleration_vertical mission_distance_rate
      mission_altitude_rate) acceleration_vertical :=
  ⟨d_mission_flight_path_angle_rate__mission_distance_rate _ _ _ _ h0,
    d_mission_flight_path_angle_rate__mission_altitude_rate _ _ _ _ h0,
    d_mission_flight_path_angle_rate__acceleration_horizontal _ _ _ _ h0,
    d_mission_flight_path_angle_rate__acceleration_vertical _ _ _ _ h0⟩

example : ∃ mission_distance_rate mission_altitude_rate acceleration_horizontal
      acceleration_vertical : ℝ,
      0 < mission_altitude_rate :=
  ⟨0, 1, 0, 0, by comp_example⟩

end Verif.Comp.MissionEnergyStateOdeTakeoffEom.FlightPathAngleRate

namespace Verif.Comp.MissionEnergyStateOdeTakeoffEom.StallSpeed
open Real

/-- aviary/mission/energy_state/ode/takeoff_eom.py:66 -/
noncomputable def weight (gravity mass : ℝ) : ℝ := mass * gravity

/-- aviary/mission/energy_state/ode/takeoff_eom.py:68 -/
noncomputable def stall_speed (gravity mass atmosphere_density wing_area lift_coefficient_max : ℝ) : ℝ :=
  ((2 * (weight gravity mass)) / ((atmosphere_density * wing_area) * lift_coefficient_max)) ^
    ((1 / 2) : ℝ)

/-- Output `stall_speed` of `StallSpeed.compute`, aviary/mission/energy_state/ode/takeoff_eom.py:69 -/
noncomputable def out_stall_speed (gravity mass atmosphere_density wing_area lift_coefficient_max : ℝ) : ℝ :=
  stall_speed gravity mass atmosphere_density wing_area lift_coefficient_max

/-- Partial of `stall_speed` with respect to `mass` as set by `StallSpeed`, aviary/mission/energy_state/ode/takeoff_eom.py:82 -/
noncomputable def J_stall_speed__mass (gravity mass atmosphere_density wing_area lift_coefficient_max : ℝ) : ℝ :=
  gravity / ((((stall_speed gravity mass atmosphere_density wing_area lift_coefficient_max) *
    atmosphere_density) * wing_area) * lift_coefficient_max)

/-- Partial of `stall_speed` with respect to `atmosphere_density` as set by `StallSpeed`, aviary/mission/energy_state/ode/takeoff_eom.py:86 -/
noncomputable def J_stall_speed__atmosphere_density (gravity mass atmosphere_density wing_area lift_coefficient_max : ℝ) : ℝ :=
  (-(weight gravity mass)) / ((((stall_speed gravity mass atmosphere_density wing_area
    lift_coefficient_max) * (atmosphere_density ^ 2)) * wing_area) * lift_coefficient_max)

/-- Partial of `stall_speed` with respect to `wing_area` as set by `StallSpeed`, aviary/mission/energy_state/ode/takeoff_eom.py:90 -/
noncomputable def J_stall_speed__wing_area (gravity mass atmosphere_density wing_area lift_coefficient_max : ℝ) : ℝ :=
  (-(weight gravity mass)) / ((((stall_speed gravity mass atmosphere_density wing_area
    lift_coefficient_max) * atmosphere_density) * (wing_area ^ 2)) * lift_coefficient_max)

/-- Partial of `stall_speed` with respect to `lift_coefficient_max` as set by `StallSpeed`, aviary/mission/energy_state/ode/takeoff_eom.py:94 -/
noncomputable def J_stall_speed__lift_coefficient_max (gravity mass atmosphere_density wing_area lift_coefficient_max : ℝ) : ℝ :=
  (-(weight gravity mass)) / ((((stall_speed gravity mass atmosphere_density wing_area
    lift_coefficient_max) * atmosphere_density) * wing_area) * (lift_coefficient_max ^ 2))

theorem d_stall_speed__mass (gravity mass atmosphere_density wing_area lift_coefficient_max : ℝ)
    (h0 : 0 < atmosphere_density) (h1 : 0 < wing_area) (h2 : 0 < lift_coefficient_max) (h3 : 0 <
    mass) (h4 : 0 < gravity) :
    HasDerivAt (fun t => out_stall_speed gravity t atmosphere_density wing_area lift_coefficient_max) (J_stall_speed__mass gravity mass atmosphere_density wing_area lift_coefficient_max) mass := by
  simp only [out_stall_speed, J_stall_speed__mass, stall_speed, weight]
  (apply hasDerivAt_of_eq; on_goal 1 => (repeat' comp_step))
  all_goals try comp_side
  all_goals try simp (disch := first | assumption | positivity) only [div_mul_eq_div_div, div_half, inv_half]
  all_goals try simp only [mul_zero, zero_mul, add_zero, zero_add, sub_zero, zero_sub, mul_one, one_mul]
  all_goals try push_cast
  all_goals comp_eq

theorem d_stall_speed__atmosphere_density (gravity mass atmosphere_density wing_area
    lift_coefficient_max : ℝ) (h0 : 0 < atmosphere_density) (h1 : 0 < wing_area) (h2 : 0 <
    lift_coefficient_max) (h3 : 0 < mass) (h4 : 0 < gravity) :
    HasDerivAt (fun t => out_stall_speed gravity mass t wing_area lift_coefficient_max) (J_stall_speed__atmosphere_density gravity mass atmosphere_density wing_area lift_coefficient_max) atmosphere_density := by
  simp only [out_stall_speed, J_stall_speed__atmosphere_density, stall_speed, weight]
  (apply hasDerivAt_of_eq; on_goal 1 => (repeat' comp_step))
  all_goals try comp_side
  all_goals try simp (disch := first | assumption | positivity) only [div_mul_eq_div_div, div_half, inv_half]
  all_goals try simp only [mul_zero, zero_mul, add_zero, zero_add, sub_zero, zero_sub, mul_one, one_mul]
  all_goals try push_cast
  all_goals comp_eq

theorem d_stall_speed__wing_area (gravity mass atmosphere_density wing_area lift_coefficient_max :
    ℝ) (h0 : 0 < atmosphere_density) (h1 : 0 < wing_area) (h2 : 0 < lift_coefficient_max) (h3 : 0
    < mass) (h4 : 0 < gravity) :
    HasDerivAt (fun t => out_stall_speed gravity mass atmosphere_density t lift_coefficient_max) (J_stall_speed__wing_area gravity mass atmosphere_density wing_area lift_coefficient_max) wing_area := by
  simp only [out_stall_speed, J_stall_speed__wing_area, stall_speed, weight]
  (apply hasDerivAt_of_eq; on_goal 1 => (repeat' comp_step))
  all_goals try comp_side
  all_goals try simp (disch := first | assumption | positivity) only [div_mul_eq_div_div, div_half, inv_half]
  all_goals try simp only [mul_zero, zero_mul, add_zero, zero_add, sub_zero, zero_sub, mul_one, one_mul]
  all_goals try push_cast
  all_goals comp_eq

theorem d_stall_speed__lift_coefficient_max (gravity mass atmosphere_density wing_area
    lift_coefficient_max : ℝ) (h0 : 0 < atmosphere_density) (h1 : 0 < wing_area) (h2 : 0 <
    lift_coefficient_max) (h3 : 0 < mass) (h4 : 0 < gravity) :
    HasDerivAt (fun t => out_stall_speed gravity mass atmosphere_density wing_area t) (J_stall_speed__lift_coefficient_max gravity mass atmosphere_density wing_area lift_coefficient_max) lift_coefficient_max := by
  simp only [out_stall_speed, J_stall_speed__lift_coefficient_max, stall_speed, weight]
  (apply hasDerivAt_of_eq; on_goal 1 => (repeat' comp_step))
  all_goals try comp_side
  all_goals try simp (disch := first | assumption | positivity) only [div_mul_eq_div_div, div_half, inv_half]
  all_goals try simp only [mul_zero, zero_mul, add_zero, zero_add, sub_zero, zero_sub, mul_one, one_mul]
  all_goals try push_cast
  all_goals comp_eq

/-- Every partial derivative set by `StallSpeed` is the derivative of its output. -/
theorem partials (gravity mass atmosphere_density wing_area lift_coefficient_max : ℝ) (h0 : 0 <
    atmosphere_density) (h1 : 0 < wing_area) (h2 : 0 < lift_coefficient_max) (h3 : 0 < mass) (h4 :
    0 < gravity) :
    HasDerivAt (fun t => out_stall_speed gravity t atmosphere_density wing_area lift_coefficient_max)
      (J_stall_speed__mass gravity mass atmosphere_density wing_area lift_coefficient_max) mass ∧
    HasDerivAt (fun t => out_stall_speed gravity mass t wing_area lift_coefficient_max)
      (J_stall_speed__atmosphere_density gravity mass atmosphere_density wing_area
      lift_coefficient_max) atmosphere_density ∧
    HasDerivAt (fun t => out_stall_speed gravity mass atmosphere_density t lift_coefficient_max)
      (J_stall_speed__wing_area gravity mass atmosphere_density wing_area lift_coefficient_max)
      wing_area ∧
    HasDerivAt (fun t => out_stall_speed gravity mass atmosphere_density wing_area t)
      (J_stall_speed__lift_coefficient_max gravity mass atmosphere_density wing_area
      lift_coefficient_max) lift_coefficient_max :=
  ⟨d_stall_speed__mass _ _ _ _ _ h0 h1 h2 h3 h4, d_stall_speed__atmosphere_density _ _ _ _ _ h0 h1
    h2 h3 h4, d_stall_speed__wing_area _ _ _ _ _ h0 h1 h2 h3 h4,
    d_stall_speed__lift_coefficient_max _ _ _ _ _ h0 h1 h2 h3 h4⟩

example : ∃ gravity mass atmosphere_density wing_area lift_coefficient_max : ℝ,
      0 < atmosphere_density ∧
      0 < wing_area ∧
      0 < lift_coefficient_max ∧
      0 < mass ∧
      0 < gravity :=
  ⟨1, 1, 1, 1, 1, by comp_example, by comp_example, by comp_example, by comp_example, by
    comp_example⟩

end Verif.Comp.MissionEnergyStateOdeTakeoffEom.StallSpeed

namespace Verif.Comp.MissionEnergyStateOdeTakeoffEom.SumForces_climbing
open Real

/-- aviary/mission/energy_state/ode/takeoff_eom.py:645 -/
noncomputable def weight (gravity vehicle_mass : ℝ) : ℝ := vehicle_mass * gravity

/-- aviary/mission/energy_state/ode/takeoff_eom.py:656 -/
noncomputable def angle (takeoff_thrust_incidence takeoff_angle_of_attack_runway vehicle_angle_of_attack mission_flight_path_angle : ℝ) : ℝ :=
  ((vehicle_angle_of_attack - takeoff_angle_of_attack_runway) + takeoff_thrust_incidence) +
    mission_flight_path_angle

/-- aviary/mission/energy_state/ode/takeoff_eom.py:658 -/
noncomputable def t_h (takeoff_thrust_incidence takeoff_angle_of_attack_runway vehicle_propulsion_thrust_total vehicle_angle_of_attack mission_flight_path_angle : ℝ) : ℝ :=
  vehicle_propulsion_thrust_total * (cos (angle takeoff_thrust_incidence
    takeoff_angle_of_attack_runway vehicle_angle_of_attack mission_flight_path_angle))

/-- aviary/mission/energy_state/ode/takeoff_eom.py:659 -/
noncomputable def t_v (takeoff_thrust_incidence takeoff_angle_of_attack_runway vehicle_propulsion_thrust_total vehicle_angle_of_attack mission_flight_path_angle : ℝ) : ℝ :=
  vehicle_propulsion_thrust_total * (sin (angle takeoff_thrust_incidence
    takeoff_angle_of_attack_runway vehicle_angle_of_attack mission_flight_path_angle))

/-- aviary/mission/energy_state/ode/takeoff_eom.py:661 -/
noncomputable def c_gamma (mission_flight_path_angle : ℝ) : ℝ := cos mission_flight_path_angle

/-- aviary/mission/energy_state/ode/takeoff_eom.py:662 -/
noncomputable def s_gamma (mission_flight_path_angle : ℝ) : ℝ := sin mission_flight_path_angle

/-- aviary/mission/energy_state/ode/takeoff_eom.py:664 -/
noncomputable def f_h (takeoff_thrust_incidence takeoff_angle_of_attack_runway vehicle_lift vehicle_propulsion_thrust_total vehicle_drag vehicle_angle_of_attack mission_flight_path_angle : ℝ) : ℝ :=
  ((t_h takeoff_thrust_incidence takeoff_angle_of_attack_runway vehicle_propulsion_thrust_total
    vehicle_angle_of_attack mission_flight_path_angle) - (vehicle_drag * (c_gamma
    mission_flight_path_angle))) - (vehicle_lift * (s_gamma mission_flight_path_angle))

/-- aviary/mission/energy_state/ode/takeoff_eom.py:666 -/
noncomputable def f_v (gravity takeoff_thrust_incidence takeoff_angle_of_attack_runway vehicle_mass vehicle_lift vehicle_propulsion_thrust_total vehicle_drag vehicle_angle_of_attack mission_flight_path_angle : ℝ) : ℝ :=
  (((t_v takeoff_thrust_incidence takeoff_angle_of_attack_runway vehicle_propulsion_thrust_total
    vehicle_angle_of_attack mission_flight_path_angle) - (vehicle_drag * (s_gamma
    mission_flight_path_angle))) + (vehicle_lift * (c_gamma mission_flight_path_angle))) -
    (weight gravity vehicle_mass)

/-- aviary/mission/energy_state/ode/takeoff_eom.py:704 -/
noncomputable def c_angle (takeoff_thrust_incidence takeoff_angle_of_attack_runway vehicle_angle_of_attack mission_flight_path_angle : ℝ) : ℝ :=
  cos (angle takeoff_thrust_incidence takeoff_angle_of_attack_runway vehicle_angle_of_attack
    mission_flight_path_angle)

/-- aviary/mission/energy_state/ode/takeoff_eom.py:705 -/
noncomputable def s_angle (takeoff_thrust_incidence takeoff_angle_of_attack_runway vehicle_angle_of_attack mission_flight_path_angle : ℝ) : ℝ :=
  sin (angle takeoff_thrust_incidence takeoff_angle_of_attack_runway vehicle_angle_of_attack
    mission_flight_path_angle)

/-- Output `forces_vertical` of `SumForces.compute`, aviary/mission/energy_state/ode/takeoff_eom.py:668 -/
noncomputable def out_forces_vertical (gravity takeoff_thrust_incidence takeoff_angle_of_attack_runway vehicle_mass vehicle_lift vehicle_propulsion_thrust_total vehicle_drag vehicle_angle_of_attack mission_flight_path_angle : ℝ) : ℝ :=
  f_v gravity takeoff_thrust_incidence takeoff_angle_of_attack_runway vehicle_mass vehicle_lift
    vehicle_propulsion_thrust_total vehicle_drag vehicle_angle_of_attack
    mission_flight_path_angle

/-- Output `forces_horizontal` of `SumForces.compute`, aviary/mission/energy_state/ode/takeoff_eom.py:682 -/
noncomputable def out_forces_horizontal (takeoff_thrust_incidence takeoff_angle_of_attack_runway vehicle_lift vehicle_propulsion_thrust_total vehicle_drag vehicle_angle_of_attack mission_flight_path_angle : ℝ) : ℝ :=
  f_h takeoff_thrust_incidence takeoff_angle_of_attack_runway vehicle_lift
    vehicle_propulsion_thrust_total vehicle_drag vehicle_angle_of_attack
    mission_flight_path_angle

/-- Partial of `forces_vertical` with respect to `vehicle_mass` as set by `SumForces`, aviary/mission/energy_state/ode/takeoff_eom.py:569 -/
noncomputable def J_forces_vertical__vehicle_mass (gravity : ℝ) : ℝ := -gravity

/-- Partial of `forces_horizontal` with respect to `vehicle_propulsion_thrust_total` as set by `SumForces`, aviary/mission/energy_state/ode/takeoff_eom.py:710 -/
noncomputable def J_forces_horizontal__vehicle_propulsion_thrust_total (takeoff_thrust_incidence takeoff_angle_of_attack_runway vehicle_angle_of_attack mission_flight_path_angle : ℝ) : ℝ :=
  c_angle takeoff_thrust_incidence takeoff_angle_of_attack_runway vehicle_angle_of_attack
    mission_flight_path_angle

/-- Partial of `forces_vertical` with respect to `vehicle_propulsion_thrust_total` as set by `SumForces`, aviary/mission/energy_state/ode/takeoff_eom.py:711 -/
noncomputable def J_forces_vertical__vehicle_propulsion_thrust_total (takeoff_thrust_incidence takeoff_angle_of_attack_runway vehicle_angle_of_attack mission_flight_path_angle : ℝ) : ℝ :=
  s_angle takeoff_thrust_incidence takeoff_angle_of_attack_runway vehicle_angle_of_attack
    mission_flight_path_angle

/-- Partial of `forces_horizontal` with respect to `vehicle_lift` as set by `SumForces`, aviary/mission/energy_state/ode/takeoff_eom.py:713 -/
noncomputable def J_forces_horizontal__vehicle_lift (mission_flight_path_angle : ℝ) : ℝ :=
  -(s_gamma mission_flight_path_angle)

/-- Partial of `forces_vertical` with respect to `vehicle_lift` as set by `SumForces`, aviary/mission/energy_state/ode/takeoff_eom.py:714 -/
noncomputable def J_forces_vertical__vehicle_lift (mission_flight_path_angle : ℝ) : ℝ :=
  c_gamma mission_flight_path_angle

/-- Partial of `forces_horizontal` with respect to `vehicle_drag` as set by `SumForces`, aviary/mission/energy_state/ode/takeoff_eom.py:716 -/
noncomputable def J_forces_horizontal__vehicle_drag (mission_flight_path_angle : ℝ) : ℝ :=
  -(c_gamma mission_flight_path_angle)

/-- Partial of `forces_vertical` with respect to `vehicle_drag` as set by `SumForces`, aviary/mission/energy_state/ode/takeoff_eom.py:717 -/
noncomputable def J_forces_vertical__vehicle_drag (mission_flight_path_angle : ℝ) : ℝ :=
  -(s_gamma mission_flight_path_angle)

/-- Partial of `forces_horizontal` with respect to `vehicle_angle_of_attack` as set by `SumForces`, aviary/mission/energy_state/ode/takeoff_eom.py:719 -/
noncomputable def J_forces_horizontal__vehicle_angle_of_attack (takeoff_thrust_incidence takeoff_angle_of_attack_runway vehicle_propulsion_thrust_total vehicle_angle_of_attack mission_flight_path_angle : ℝ) : ℝ :=
  (-vehicle_propulsion_thrust_total) * (s_angle takeoff_thrust_incidence
    takeoff_angle_of_attack_runway vehicle_angle_of_attack mission_flight_path_angle)

/-- Partial of `forces_vertical` with respect to `vehicle_angle_of_attack` as set by `SumForces`, aviary/mission/energy_state/ode/takeoff_eom.py:720 -/
noncomputable def J_forces_vertical__vehicle_angle_of_attack (takeoff_thrust_incidence takeoff_angle_of_attack_runway vehicle_propulsion_thrust_total vehicle_angle_of_attack mission_flight_path_angle : ℝ) : ℝ :=
  vehicle_propulsion_thrust_total * (c_angle takeoff_thrust_incidence
    takeoff_angle_of_attack_runway vehicle_angle_of_attack mission_flight_path_angle)

/-- Partial of `forces_horizontal` with respect to `mission_flight_path_angle` as set by `SumForces`, aviary/mission/energy_state/ode/takeoff_eom.py:722 -/
noncomputable def J_forces_horizontal__mission_flight_path_angle (takeoff_thrust_incidence takeoff_angle_of_attack_runway vehicle_lift vehicle_propulsion_thrust_total vehicle_drag vehicle_angle_of_attack mission_flight_path_angle : ℝ) : ℝ :=
  (((-vehicle_propulsion_thrust_total) * (s_angle takeoff_thrust_incidence
    takeoff_angle_of_attack_runway vehicle_angle_of_attack mission_flight_path_angle)) +
    (vehicle_drag * (s_gamma mission_flight_path_angle))) - (vehicle_lift * (c_gamma
    mission_flight_path_angle))

/-- Partial of `forces_vertical` with respect to `mission_flight_path_angle` as set by `SumForces`, aviary/mission/energy_state/ode/takeoff_eom.py:726 -/
noncomputable def J_forces_vertical__mission_flight_path_angle (takeoff_thrust_incidence takeoff_angle_of_attack_runway vehicle_lift vehicle_propulsion_thrust_total vehicle_drag vehicle_angle_of_attack mission_flight_path_angle : ℝ) : ℝ :=
  ((vehicle_propulsion_thrust_total * (c_angle takeoff_thrust_incidence
    takeoff_angle_of_attack_runway vehicle_angle_of_attack mission_flight_path_angle)) -
    (vehicle_drag * (c_gamma mission_flight_path_angle))) - (vehicle_lift * (s_gamma
    mission_flight_path_angle))

theorem d_forces_vertical__vehicle_mass (gravity takeoff_thrust_incidence
    takeoff_angle_of_attack_runway vehicle_mass vehicle_lift vehicle_propulsion_thrust_total
    vehicle_drag vehicle_angle_of_attack mission_flight_path_angle : ℝ)  :
    HasDerivAt (fun t => out_forces_vertical gravity takeoff_thrust_incidence takeoff_angle_of_attack_runway t vehicle_lift vehicle_propulsion_thrust_total vehicle_drag vehicle_angle_of_attack mission_flight_path_angle) (J_forces_vertical__vehicle_mass gravity) vehicle_mass := by
  simp only [out_forces_vertical, J_forces_vertical__vehicle_mass, f_v, weight, c_gamma, s_gamma, t_v, angle]
  (apply hasDerivAt_of_eq; on_goal 1 => (repeat' comp_step))
  all_goals try comp_side
  all_goals try simp only [mul_zero, zero_mul, add_zero, zero_add, sub_zero, zero_sub, mul_one, one_mul]
  all_goals try push_cast
  all_goals comp_eq

theorem d_forces_vertical__vehicle_lift (gravity takeoff_thrust_incidence
    takeoff_angle_of_attack_runway vehicle_mass vehicle_lift vehicle_propulsion_thrust_total
    vehicle_drag vehicle_angle_of_attack mission_flight_path_angle : ℝ)  :
    HasDerivAt (fun t => out_forces_vertical gravity takeoff_thrust_incidence takeoff_angle_of_attack_runway vehicle_mass t vehicle_propulsion_thrust_total vehicle_drag vehicle_angle_of_attack mission_flight_path_angle) (J_forces_vertical__vehicle_lift mission_flight_path_angle) vehicle_lift := by
  simp only [out_forces_vertical, J_forces_vertical__vehicle_lift, f_v, weight, c_gamma, s_gamma, t_v, angle]
  (apply hasDerivAt_of_eq; on_goal 1 => (repeat' comp_step))
  all_goals try comp_side
  all_goals try simp only [mul_zero, zero_mul, add_zero, zero_add, sub_zero, zero_sub, mul_one, one_mul]
  all_goals try push_cast
  all_goals comp_eq

theorem d_forces_vertical__vehicle_propulsion_thrust_total (gravity takeoff_thrust_incidence
    takeoff_angle_of_attack_runway vehicle_mass vehicle_lift vehicle_propulsion_thrust_total
    vehicle_drag vehicle_angle_of_attack mission_flight_path_angle : ℝ)  :
    HasDerivAt (fun t => out_forces_vertical gravity takeoff_thrust_incidence takeoff_angle_of_attack_runway vehicle_mass vehicle_lift t vehicle_drag vehicle_angle_of_attack mission_flight_path_angle) (J_forces_vertical__vehicle_propulsion_thrust_total takeoff_thrust_incidence takeoff_angle_of_attack_runway vehicle_angle_of_attack mission_flight_path_angle) vehicle_propulsion_thrust_total := by
  simp only [out_forces_vertical, J_forces_vertical__vehicle_propulsion_thrust_total, s_angle, f_v, weight, c_gamma, s_gamma, t_v, angle]
  (apply hasDerivAt_of_eq; on_goal 1 => (repeat' comp_step))
  all_goals try comp_side
  all_goals try simp only [mul_zero, zero_mul, add_zero, zero_add, sub_zero, zero_sub, mul_one, one_mul]
  all_goals try push_cast
  all_goals comp_eq

theorem d_forces_vertical__vehicle_drag (gravity takeoff_thrust_incidence
    takeoff_angle_of_attack_runway vehicle_mass vehicle_lift vehicle_propulsion_thrust_total
    vehicle_drag vehicle_angle_of_attack mission_flight_path_angle : ℝ)  :
    HasDerivAt (fun t => out_forces_vertical gravity takeoff_thrust_incidence takeoff_angle_of_attack_runway vehicle_mass vehicle_lift vehicle_propulsion_thrust_total t vehicle_angle_of_attack mission_flight_path_angle) (J_forces_vertical__vehicle_drag mission_flight_path_angle) vehicle_drag := by
  simp only [out_forces_vertical, J_forces_vertical__vehicle_drag, f_v, weight, c_gamma, s_gamma, t_v, angle]
  (apply hasDerivAt_of_eq; on_goal 1 => (repeat' comp_step))
  all_goals try comp_side
  all_goals try simp only [mul_zero, zero_mul, add_zero, zero_add, sub_zero, zero_sub, mul_one, one_mul]
  all_goals try push_cast
  all_goals comp_eq

theorem d_forces_vertical__vehicle_angle_of_attack (gravity takeoff_thrust_incidence
    takeoff_angle_of_attack_runway vehicle_mass vehicle_lift vehicle_propulsion_thrust_total
    vehicle_drag vehicle_angle_of_attack mission_flight_path_angle : ℝ)  :
    HasDerivAt (fun t => out_forces_vertical gravity takeoff_thrust_incidence takeoff_angle_of_attack_runway vehicle_mass vehicle_lift vehicle_propulsion_thrust_total vehicle_drag t mission_flight_path_angle) (J_forces_vertical__vehicle_angle_of_attack takeoff_thrust_incidence takeoff_angle_of_attack_runway vehicle_propulsion_thrust_total vehicle_angle_of_attack mission_flight_path_angle) vehicle_angle_of_attack := by
  simp only [out_forces_vertical, J_forces_vertical__vehicle_angle_of_attack, c_angle, f_v, weight, c_gamma, s_gamma, t_v, angle]
  (apply hasDerivAt_of_eq; on_goal 1 => (repeat' comp_step))
  all_goals try comp_side
  all_goals try simp only [mul_zero, zero_mul, add_zero, zero_add, sub_zero, zero_sub, mul_one, one_mul]
  all_goals try push_cast
  all_goals comp_eq

theorem d_forces_vertical__mission_flight_path_angle (gravity takeoff_thrust_incidence
    takeoff_angle_of_attack_runway vehicle_mass vehicle_lift vehicle_propulsion_thrust_total
    vehicle_drag vehicle_angle_of_attack mission_flight_path_angle : ℝ)  :
    HasDerivAt (fun t => out_forces_vertical gravity takeoff_thrust_incidence takeoff_angle_of_attack_runway vehicle_mass vehicle_lift vehicle_propulsion_thrust_total vehicle_drag vehicle_angle_of_attack t) (J_forces_vertical__mission_flight_path_angle takeoff_thrust_incidence takeoff_angle_of_attack_runway vehicle_lift vehicle_propulsion_thrust_total vehicle_drag vehicle_angle_of_attack mission_flight_path_angle) mission_flight_path_angle := by
  simp only [out_forces_vertical, J_forces_vertical__mission_flight_path_angle, c_angle, f_v, weight, c_gamma, s_gamma, t_v, angle]
  (apply hasDerivAt_of_eq; on_goal 1 => (repeat' comp_step))
  all_goals try comp_side
  all_goals try simp only [mul_zero, zero_mul, add_zero, zero_add, sub_zero, zero_sub, mul_one, one_mul]
  all_goals try push_cast
  all_goals comp_eq

theorem d_forces_horizontal__vehicle_lift (takeoff_thrust_incidence takeoff_angle_of_attack_runway
    vehicle_lift vehicle_propulsion_thrust_total vehicle_drag vehicle_angle_of_attack
    mission_flight_path_angle : ℝ)  :
    HasDerivAt (fun t => out_forces_horizontal takeoff_thrust_incidence takeoff_angle_of_attack_runway t vehicle_propulsion_thrust_total vehicle_drag vehicle_angle_of_attack mission_flight_path_angle) (J_forces_horizontal__vehicle_lift mission_flight_path_angle) vehicle_lift := by
  simp only [out_forces_horizontal, J_forces_horizontal__vehicle_lift, f_h, s_gamma, c_gamma, t_h, angle]
  (apply hasDerivAt_of_eq; on_goal 1 => (repeat' comp_step))
  all_goals try comp_side
  all_goals try simp only [mul_zero, zero_mul, add_zero, zero_add, sub_zero, zero_sub, mul_one, one_mul]
  all_goals try push_cast
  all_goals comp_eq

theorem d_forces_horizontal__vehicle_propulsion_thrust_total (takeoff_thrust_incidence
    takeoff_angle_of_attack_runway vehicle_lift vehicle_propulsion_thrust_total vehicle_drag
    vehicle_angle_of_attack mission_flight_path_angle : ℝ)  :
    HasDerivAt (fun t => out_forces_horizontal takeoff_thrust_incidence takeoff_angle_of_attack_runway vehicle_lift t vehicle_drag vehicle_angle_of_attack mission_flight_path_angle) (J_forces_horizontal__vehicle_propulsion_thrust_total takeoff_thrust_incidence takeoff_angle_of_attack_runway vehicle_angle_of_attack mission_flight_path_angle) vehicle_propulsion_thrust_total := by
  simp only [out_forces_horizontal, J_forces_horizontal__vehicle_propulsion_thrust_total, c_angle, f_h, s_gamma, c_gamma, t_h, angle]
  (apply hasDerivAt_of_eq; on_goal 1 => (repeat' comp_step))
  all_goals try comp_side
  all_goals try simp only [mul_zero, zero_mul, add_zero, zero_add, sub_zero, zero_sub, mul_one, one_mul]
  all_goals try push_cast
  all_goals comp_eq

theorem d_forces_horizontal__vehicle_drag (takeoff_thrust_incidence takeoff_angle_of_attack_runway
    vehicle_lift vehicle_propulsion_thrust_total vehicle_drag vehicle_angle_of_attack
    mission_flight_path_angle : ℝ)  :
    HasDerivAt (fun t => out_forces_horizontal takeoff_thrust_incidence takeoff_angle_of_attack_runway vehicle_lift vehicle_propulsion_thrust_total t vehicle_angle_of_attack mission_flight_path_angle) (J_forces_horizontal__vehicle_drag mission_flight_path_angle) vehicle_drag := by
  simp only [out_forces_horizontal, J_forces_horizontal__vehicle_drag, f_h, s_gamma, c_gamma, t_h, angle]
  (apply hasDerivAt_of_eq; on_goal 1 => (repeat' comp_step))
  all_goals try comp_side
  all_goals try simp only [mul_zero, zero_mul, add_zero, zero_add, sub_zero, zero_sub, mul_one, one_mul]
  all_goals try push_cast
  all_goals comp_eq

theorem d_forces_horizontal__vehicle_angle_of_attack (takeoff_thrust_incidence
    takeoff_angle_of_attack_runway vehicle_lift vehicle_propulsion_thrust_total vehicle_drag
    vehicle_angle_of_attack mission_flight_path_angle : ℝ)  :
    HasDerivAt (fun t => out_forces_horizontal takeoff_thrust_incidence takeoff_angle_of_attack_runway vehicle_lift vehicle_propulsion_thrust_total vehicle_drag t mission_flight_path_angle) (J_forces_horizontal__vehicle_angle_of_attack takeoff_thrust_incidence takeoff_angle_of_attack_runway vehicle_propulsion_thrust_total vehicle_angle_of_attack mission_flight_path_angle) vehicle_angle_of_attack := by
  simp only [out_forces_horizontal, J_forces_horizontal__vehicle_angle_of_attack, s_angle, f_h, s_gamma, c_gamma, t_h, angle]
  (apply hasDerivAt_of_eq; on_goal 1 => (repeat' comp_step))
  all_goals try comp_side
  all_goals try simp only [mul_zero, zero_mul, add_zero, zero_add, sub_zero, zero_sub, mul_one, one_mul]
  all_goals try push_cast
  all_goals comp_eq

theorem d_forces_horizontal__mission_flight_path_angle (takeoff_thrust_incidence
    takeoff_angle_of_attack_runway vehicle_lift vehicle_propulsion_thrust_total vehicle_drag
    vehicle_angle_of_attack mission_flight_path_angle : ℝ)  :
    HasDerivAt (fun t => out_forces_horizontal takeoff_thrust_incidence takeoff_angle_of_attack_runway vehicle_lift vehicle_propulsion_thrust_total vehicle_drag vehicle_angle_of_attack t) (J_forces_horizontal__mission_flight_path_angle takeoff_thrust_incidence takeoff_angle_of_attack_runway vehicle_lift vehicle_propulsion_thrust_total vehicle_drag vehicle_angle_of_attack mission_flight_path_angle) mission_flight_path_angle := by
  simp only [out_forces_horizontal, J_forces_horizontal__mission_flight_path_angle, s_angle, f_h, s_gamma, c_gamma, t_h, angle]
  (apply hasDerivAt_of_eq; on_goal 1 => (repeat' comp_step))
  all_goals try comp_side
  all_goals try simp only [mul_zero, zero_mul, add_zero, zero_add, sub_zero, zero_sub, mul_one, one_mul]
  all_goals try push_cast
  all_goals comp_eq

/-- Every partial derivative set by `SumForces` is the derivative of its output. -/
theorem partials (gravity takeoff_thrust_incidence takeoff_angle_of_attack_runway vehicle_mass
    vehicle_lift vehicle_propulsion_thrust_total vehicle_drag vehicle_angle_of_attack
    mission_flight_path_angle : ℝ) :
    HasDerivAt (fun t => out_forces_vertical gravity takeoff_thrust_incidence
      takeoff_angle_of_attack_runway t vehicle_lift vehicle_propulsion_thrust_total vehicle_drag
      vehicle_angle_of_attack mission_flight_path_angle) (J_forces_vertical__vehicle_mass gravity)
      vehicle_mass ∧
    HasDerivAt (fun t => out_forces_vertical gravity takeoff_thrust_incidence
      takeoff_angle_of_attack_runway vehicle_mass t vehicle_propulsion_thrust_total vehicle_drag
      vehicle_angle_of_attack mission_flight_path_angle) (J_forces_vertical__vehicle_lift
      mission_flight_path_angle) vehicle_lift ∧
    HasDerivAt (fun t => out_forces_vertical gravity takeoff_thrust_incidence
      takeoff_angle_of_attack_runway vehicle_mass vehicle_lift t vehicle_drag
      vehicle_angle_of_attack mission_flight_path_angle)
      (J_forces_vertical__vehicle_propulsion_thrust_total takeoff_thrust_incidence
      takeoff_angle_of_attack_runway vehicle_angle_of_attack mission_flight_path_angle)
      vehicle_propulsion_thrust_total ∧
    HasDerivAt (fun t => out_forces_vertical gravity takeoff_thrust_incidence
      takeoff_angle_of_attack_runway vehicle_mass vehicle_lift vehicle_propulsion_thrust_total t
      vehicle_angle_of_attack mission_flight_path_angle) (J_forces_vertical__vehicle_drag
      mission_flight_path_angle) vehicle_drag ∧
    HasDerivAt (fun t => out_forces_vertical gravity takeoff_thrust_incidence
      takeoff_angle_of_attack_runway vehicle_mass vehicle_lift vehicle_propulsion_thrust_total
      vehicle_drag t mission_flight_path_angle) (J_forces_vertical__vehicle_angle_of_attack
      takeoff_thrust_incidence takeoff_angle_of_attack_runway vehicle_propulsion_thrust_total
      vehicle_angle_of_attack mission_flight_path_angle) vehicle_angle_of_attack ∧
    HasDerivAt (fun t => out_forces_vertical gravity takeoff_thrust_incidence
      takeoff_angle_of_attack_runway vehicle_mass vehicle_lift vehicle_propulsion_thrust_total
      vehicle_drag vehicle_angle_of_attack t) (J_forces_vertical__mission_flight_path_angle
      takeoff_thrust_incidence takeoff_angle_of_attack_runway vehicle_lift
      vehicle_propulsion_thrust_total vehicle_drag vehicle_angle_of_attack
      mission_flight_path_angle) mission_flight_path_angle ∧
    HasDerivAt (fun t => out_forces_horizontal takeoff_thrust_incidence takeoff_angle_of_attack_runway
      t vehicle_propulsion_thrust_total vehicle_drag vehicle_angle_of_attack
      mission_flight_path_angle) (J_forces_horizontal__vehicle_lift mission_flight_path_angle)
      vehicle_lift ∧
    HasDerivAt (fun t => out_forces_horizontal takeoff_thrust_incidence takeoff_angle_of_attack_runway
      vehicle_lift t vehicle_drag vehicle_angle_of_attack mission_flight_path_angle)
      (J_forces_horizontal__vehicle_propulsion_thrust_total takeoff_thrust_incidence
      takeoff_angle_of_attack_runway vehicle_angle_of_attack mission_flight_path_angle)
      vehicle_propulsion_thrust_total ∧
    HasDerivAt (fun t => out_forces_horizontal takeoff_thrust_incidence takeoff_angle_of_attack_runway
      vehicle_lift vehicle_propulsion_thrust_total t vehicle_angle_of_attack
      mission_flight_path_angle) (J_forces_horizontal__vehicle_drag mission_flight_path_angle)
      vehicle_drag ∧
    HasDerivAt (fun t => out_forces_horizontal takeoff_thrust_incidence takeoff_angle_of_attack_runway
      vehicle_lift vehicle_propulsion_thrust_total vehicle_drag t mission_flight_path_angle)
      (J_forces_horizontal__vehicle_angle_of_attack takeoff_thrust_incidence
      takeoff_angle_of_attack_runway vehicle_propulsion_thrust_total vehicle_angle_of_attack
      mission_flight_path_angle) vehicle_angle_of_attack ∧
    HasDerivAt (fun t => out_forces_horizontal takeoff_thrust_incidence takeoff_angle_of_attack_runway
      vehicle_lift vehicle_propulsion_thrust_total vehicle_drag vehicle_angle_of_attack t)
      (J_forces_horizontal__mission_flight_path_angle takeoff_thrust_incidence
      takeoff_angle_of_attack_runway vehicle_lift vehicle_propulsion_thrust_total vehicle_drag
      vehicle_angle_of_attack mission_flight_path_angle) mission_flight_path_angle :=
  ⟨d_forces_vertical__vehicle_mass _ _ _ _ _ _ _ _ _, d_forces_vertical__vehicle_lift _ _ _ _ _ _
    _ _ _, d_forces_vertical__vehicle_propulsion_thrust_total _ _ _ _ _ _ _ _ _,
    d_forces_vertical__vehicle_drag _ _ _ _ _ _ _ _ _, d_forces_vertical__vehicle_angle_of_attack
    _ _ _ _ _ _ _ _ _, d_forces_vertical__mission_flight_path_angle _ _ _ _ _ _ _ _ _,
    d_forces_horizontal__vehicle_lift _ _ _ _ _ _ _,
    d_forces_horizontal__vehicle_propulsion_thrust_total _ _ _ _ _ _ _,
    d_forces_horizontal__vehicle_drag _ _ _ _ _ _ _, d_forces_horizontal__vehicle_angle_of_attack
    _ _ _ _ _ _ _, d_forces_horizontal__mission_flight_path_angle _ _ _ _ _ _ _⟩

end Verif.Comp.MissionEnergyStateOdeTakeoffEom.SumForces_climbing

namespace Verif.Comp.MissionEnergyStateOdeTakeoffEom.SumForces_no_climbing
open Real

/-- aviary/mission/energy_state/ode/takeoff_eom.py:645 -/
noncomputable def weight (gravity vehicle_mass : ℝ) : ℝ := vehicle_mass * gravity

/-- aviary/mission/energy_state/ode/takeoff_eom.py:677 -/
noncomputable def t_h (takeoff_thrust_incidence vehicle_propulsion_thrust_total : ℝ) : ℝ :=
  vehicle_propulsion_thrust_total * (cos takeoff_thrust_incidence)

/-- aviary/mission/energy_state/ode/takeoff_eom.py:678 -/
noncomputable def t_v (takeoff_thrust_incidence vehicle_propulsion_thrust_total : ℝ) : ℝ :=
  vehicle_propulsion_thrust_total * (sin takeoff_thrust_incidence)

/-- aviary/mission/energy_state/ode/takeoff_eom.py:680 -/
noncomputable def f_h (gravity takeoff_thrust_incidence friction_coefficient vehicle_mass vehicle_lift vehicle_propulsion_thrust_total vehicle_drag : ℝ) : ℝ :=
  ((t_h takeoff_thrust_incidence vehicle_propulsion_thrust_total) - vehicle_drag) - (((weight
    gravity vehicle_mass) - (vehicle_lift + (t_v takeoff_thrust_incidence
    vehicle_propulsion_thrust_total))) * friction_coefficient)

/-- Output `forces_horizontal` of `SumForces.compute`, aviary/mission/energy_state/ode/takeoff_eom.py:682 -/
noncomputable def out_forces_horizontal (gravity takeoff_thrust_incidence friction_coefficient vehicle_mass vehicle_lift vehicle_propulsion_thrust_total vehicle_drag : ℝ) : ℝ :=
  f_h gravity takeoff_thrust_incidence friction_coefficient vehicle_mass vehicle_lift
    vehicle_propulsion_thrust_total vehicle_drag

/-- Partial of `forces_horizontal` with respect to `vehicle_mass` as set by `SumForces`, aviary/mission/energy_state/ode/takeoff_eom.py:590 -/
noncomputable def J_forces_horizontal__vehicle_mass (gravity friction_coefficient : ℝ) : ℝ :=
  (-gravity) * friction_coefficient

/-- Partial of `forces_horizontal` with respect to `vehicle_lift` as set by `SumForces`, aviary/mission/energy_state/ode/takeoff_eom.py:598 -/
noncomputable def J_forces_horizontal__vehicle_lift (friction_coefficient : ℝ) : ℝ :=
  friction_coefficient

/-- Partial of `forces_horizontal` with respect to `vehicle_propulsion_thrust_total` as set by `SumForces`, aviary/mission/energy_state/ode/takeoff_eom.py:608 -/
noncomputable def J_forces_horizontal__vehicle_propulsion_thrust_total (takeoff_thrust_incidence friction_coefficient : ℝ) : ℝ :=
  (cos takeoff_thrust_incidence) + ((sin takeoff_thrust_incidence) * friction_coefficient)

/-- Partial of `forces_horizontal` with respect to `vehicle_drag` as set by `SumForces`, aviary/mission/energy_state/ode/takeoff_eom.py:616 -/
noncomputable def J_forces_horizontal__vehicle_drag : ℝ := -1

theorem d_forces_horizontal__vehicle_mass (gravity takeoff_thrust_incidence friction_coefficient
    vehicle_mass vehicle_lift vehicle_propulsion_thrust_total vehicle_drag : ℝ)  :
    HasDerivAt (fun t => out_forces_horizontal gravity takeoff_thrust_incidence friction_coefficient t vehicle_lift vehicle_propulsion_thrust_total vehicle_drag) (J_forces_horizontal__vehicle_mass gravity friction_coefficient) vehicle_mass := by
  simp only [out_forces_horizontal, J_forces_horizontal__vehicle_mass, f_h, t_v, weight, t_h]
  (apply hasDerivAt_of_eq; on_goal 1 => (repeat' comp_step))
  all_goals try comp_side
  all_goals try simp only [mul_zero, zero_mul, add_zero, zero_add, sub_zero, zero_sub, mul_one, one_mul]
  all_goals try push_cast
  all_goals comp_eq

theorem d_forces_horizontal__vehicle_lift (gravity takeoff_thrust_incidence friction_coefficient
    vehicle_mass vehicle_lift vehicle_propulsion_thrust_total vehicle_drag : ℝ)  :
    HasDerivAt (fun t => out_forces_horizontal gravity takeoff_thrust_incidence friction_coefficient vehicle_mass t vehicle_propulsion_thrust_total vehicle_drag) (J_forces_horizontal__vehicle_lift friction_coefficient) vehicle_lift := by
  simp only [out_forces_horizontal, J_forces_horizontal__vehicle_lift, f_h, t_v, weight, t_h]
  (apply hasDerivAt_of_eq; on_goal 1 => (repeat' comp_step))
  all_goals try comp_side
  all_goals try simp only [mul_zero, zero_mul, add_zero, zero_add, sub_zero, zero_sub, mul_one, one_mul]
  all_goals try push_cast
  all_goals comp_eq

theorem d_forces_horizontal__vehicle_propulsion_thrust_total (gravity takeoff_thrust_incidence
    friction_coefficient vehicle_mass vehicle_lift vehicle_propulsion_thrust_total vehicle_drag :
    ℝ)  :
    HasDerivAt (fun t => out_forces_horizontal gravity takeoff_thrust_incidence friction_coefficient vehicle_mass vehicle_lift t vehicle_drag) (J_forces_horizontal__vehicle_propulsion_thrust_total takeoff_thrust_incidence friction_coefficient) vehicle_propulsion_thrust_total := by
  simp only [out_forces_horizontal, J_forces_horizontal__vehicle_propulsion_thrust_total, f_h, t_v, weight, t_h]
  (apply hasDerivAt_of_eq; on_goal 1 => (repeat' comp_step))
  all_goals try comp_side
  all_goals try simp only [mul_zero, zero_mul, add_zero, zero_add, sub_zero, zero_sub, mul_one, one_mul]
  all_goals try push_cast
  all_goals comp_eq

theorem d_forces_horizontal__vehicle_drag (gravity takeoff_thrust_incidence friction_coefficient
    vehicle_mass vehicle_lift vehicle_propulsion_thrust_total vehicle_drag : ℝ)  :
    HasDerivAt (fun t => out_forces_horizontal gravity takeoff_thrust_incidence friction_coefficient vehicle_mass vehicle_lift vehicle_propulsion_thrust_total t) (J_forces_horizontal__vehicle_drag) vehicle_drag := by
  simp only [out_forces_horizontal, J_forces_horizontal__vehicle_drag, f_h, t_v, weight, t_h]
  (apply hasDerivAt_of_eq; on_goal 1 => (repeat' comp_step))
  all_goals try comp_side
  all_goals try simp only [mul_zero, zero_mul, add_zero, zero_add, sub_zero, zero_sub, mul_one, one_mul]
  all_goals try push_cast
  all_goals comp_eq

/-- Every partial derivative set by `SumForces` is the derivative of its output. -/
theorem partials (gravity takeoff_thrust_incidence friction_coefficient vehicle_mass vehicle_lift
    vehicle_propulsion_thrust_total vehicle_drag : ℝ) :
    HasDerivAt (fun t => out_forces_horizontal gravity takeoff_thrust_incidence friction_coefficient t
      vehicle_lift vehicle_propulsion_thrust_total vehicle_drag)
      (J_forces_horizontal__vehicle_mass gravity friction_coefficient) vehicle_mass ∧
    HasDerivAt (fun t => out_forces_horizontal gravity takeoff_thrust_incidence friction_coefficient
      vehicle_mass t vehicle_propulsion_thrust_total vehicle_drag)
      (J_forces_horizontal__vehicle_lift friction_coefficient) vehicle_lift ∧
    HasDerivAt (fun t => out_forces_horizontal gravity takeoff_thrust_incidence friction_coefficient
      vehicle_mass vehicle_lift t vehicle_drag)
      (J_forces_horizontal__vehicle_propulsion_thrust_total takeoff_thrust_incidence
      friction_coefficient) vehicle_propulsion_thrust_total ∧
    HasDerivAt (fun t => out_forces_horizontal gravity takeoff_thrust_incidence friction_coefficient
      vehicle_mass vehicle_lift vehicle_propulsion_thrust_total t)
      (J_forces_horizontal__vehicle_drag) vehicle_drag :=
  ⟨d_forces_horizontal__vehicle_mass _ _ _ _ _ _ _, d_forces_horizontal__vehicle_lift _ _ _ _ _ _
    _, d_forces_horizontal__vehicle_propulsion_thrust_total _ _ _ _ _ _ _,
    d_forces_horizontal__vehicle_drag _ _ _ _ _ _ _⟩

end Verif.Comp.MissionEnergyStateOdeTakeoffEom.SumForces_no_climbing

namespace Verif.Comp.MissionEnergyStateOdeTakeoffEom.VelocityRate
open Real

/-- aviary/mission/energy_state/ode/takeoff_eom.py:405 -/
noncomputable def v_mag (mission_distance_rate mission_altitude_rate : ℝ) : ℝ :=
  sqrt ((mission_distance_rate ^ 2) + (mission_altitude_rate ^ 2))

/-- aviary/mission/energy_state/ode/takeoff_eom.py:414 -/
noncomputable def num (acceleration_horizontal acceleration_vertical mission_distance_rate mission_altitude_rate : ℝ) : ℝ :=
  (acceleration_horizontal * mission_distance_rate) + (acceleration_vertical *
    mission_altitude_rate)

/-- aviary/mission/energy_state/ode/takeoff_eom.py:415 -/
noncomputable def fact (mission_distance_rate mission_altitude_rate : ℝ) : ℝ :=
  (mission_distance_rate ^ 2) + (mission_altitude_rate ^ 2)

/-- aviary/mission/energy_state/ode/takeoff_eom.py:416 -/
noncomputable def den (mission_distance_rate mission_altitude_rate : ℝ) : ℝ :=
  sqrt (fact mission_distance_rate mission_altitude_rate)

/-- Output `mission_velocity_rate` of `VelocityRate.compute`, aviary/mission/energy_state/ode/takeoff_eom.py:406 -/
noncomputable def out_mission_velocity_rate (acceleration_horizontal acceleration_vertical mission_distance_rate mission_altitude_rate : ℝ) : ℝ :=
  ((acceleration_horizontal * mission_distance_rate) + (acceleration_vertical *
    mission_altitude_rate)) / (v_mag mission_distance_rate mission_altitude_rate)

/-- Partial of `mission_velocity_rate` with respect to `acceleration_horizontal` as set by `VelocityRate`, aviary/mission/energy_state/ode/takeoff_eom.py:418 -/
noncomputable def J_mission_velocity_rate__acceleration_horizontal (mission_distance_rate mission_altitude_rate : ℝ) : ℝ :=
  mission_distance_rate / (den mission_distance_rate mission_altitude_rate)

/-- Partial of `mission_velocity_rate` with respect to `acceleration_vertical` as set by `VelocityRate`, aviary/mission/energy_state/ode/takeoff_eom.py:419 -/
noncomputable def J_mission_velocity_rate__acceleration_vertical (mission_distance_rate mission_altitude_rate : ℝ) : ℝ :=
  mission_altitude_rate / (den mission_distance_rate mission_altitude_rate)

/-- Partial of `mission_velocity_rate` with respect to `mission_distance_rate` as set by `VelocityRate`, aviary/mission/energy_state/ode/takeoff_eom.py:421 -/
noncomputable def J_mission_velocity_rate__mission_distance_rate (acceleration_horizontal acceleration_vertical mission_distance_rate mission_altitude_rate : ℝ) : ℝ :=
  (acceleration_horizontal / (den mission_distance_rate mission_altitude_rate)) - (((((1 / 2) *
    (num acceleration_horizontal acceleration_vertical mission_distance_rate
    mission_altitude_rate)) / ((fact mission_distance_rate mission_altitude_rate) ^ ((3 / 2) :
    ℝ))) * 2) * mission_distance_rate)

/-- Partial of `mission_velocity_rate` with respect to `mission_altitude_rate` as set by `VelocityRate`, aviary/mission/energy_state/ode/takeoff_eom.py:425 -/
noncomputable def J_mission_velocity_rate__mission_altitude_rate (acceleration_horizontal acceleration_vertical mission_distance_rate mission_altitude_rate : ℝ) : ℝ :=
  (acceleration_vertical / (den mission_distance_rate mission_altitude_rate)) - (((((1 / 2) *
    (num acceleration_horizontal acceleration_vertical mission_distance_rate
    mission_altitude_rate)) / ((fact mission_distance_rate mission_altitude_rate) ^ ((3 / 2) :
    ℝ))) * 2) * mission_altitude_rate)

theorem d_mission_velocity_rate__acceleration_horizontal (acceleration_horizontal
    acceleration_vertical mission_distance_rate mission_altitude_rate : ℝ) (h0 : 0 <
    mission_altitude_rate) :
    HasDerivAt (fun t => out_mission_velocity_rate t acceleration_vertical mission_distance_rate mission_altitude_rate) (J_mission_velocity_rate__acceleration_horizontal mission_distance_rate mission_altitude_rate) acceleration_horizontal := by
  simp only [out_mission_velocity_rate, J_mission_velocity_rate__acceleration_horizontal, den, fact, v_mag, sqrt_eq_rpow]
  (apply hasDerivAt_of_eq; on_goal 1 => (repeat' comp_step))
  all_goals try comp_side
  all_goals try simp (disch := first | assumption | positivity) only [div_mul_eq_div_div, div_half, inv_half]
  all_goals try simp only [mul_zero, zero_mul, add_zero, zero_add, sub_zero, zero_sub, mul_one, one_mul]
  all_goals try push_cast
  all_goals comp_eq

theorem d_mission_velocity_rate__acceleration_vertical (acceleration_horizontal
    acceleration_vertical mission_distance_rate mission_altitude_rate : ℝ) (h0 : 0 <
    mission_altitude_rate) :
    HasDerivAt (fun t => out_mission_velocity_rate acceleration_horizontal t mission_distance_rate mission_altitude_rate) (J_mission_velocity_rate__acceleration_vertical mission_distance_rate mission_altitude_rate) acceleration_vertical := by
  simp only [out_mission_velocity_rate, J_mission_velocity_rate__acceleration_vertical, den, fact, v_mag, sqrt_eq_rpow]
  (apply hasDerivAt_of_eq; on_goal 1 => (repeat' comp_step))
  all_goals try comp_side
  all_goals try simp (disch := first | assumption | positivity) only [div_mul_eq_div_div, div_half, inv_half]
  all_goals try simp only [mul_zero, zero_mul, add_zero, zero_add, sub_zero, zero_sub, mul_one, one_mul]
  all_goals try push_cast
  all_goals comp_eq

theorem d_mission_velocity_rate__mission_distance_rate (acceleration_horizontal
    acceleration_vertical mission_distance_rate mission_altitude_rate : ℝ) (h0 : 0 <
    mission_altitude_rate) :
    HasDerivAt (fun t => out_mission_velocity_rate acceleration_horizontal acceleration_vertical t mission_altitude_rate) (J_mission_velocity_rate__mission_distance_rate acceleration_horizontal acceleration_vertical mission_distance_rate mission_altitude_rate) mission_distance_rate := by
  have e0 : ∀ x : ℝ, 0 < x → x ^ ((3 / 2) : ℝ) = x ^ ((1 / 2) : ℝ) * x ^ 1 := fun x hx => rpow_up hx 1 (by norm_num)
  simp only [out_mission_velocity_rate, J_mission_velocity_rate__mission_distance_rate, num, den, fact, v_mag, sqrt_eq_rpow]
  (apply hasDerivAt_of_eq; on_goal 1 => (repeat' comp_step))
  all_goals try comp_side
  all_goals try simp (disch := first | assumption | positivity) only [e0, div_mul_eq_div_div, div_half, inv_half]
  all_goals try simp only [mul_zero, zero_mul, add_zero, zero_add, sub_zero, zero_sub, mul_one, one_mul]
  all_goals try push_cast
  all_goals comp_eq

theorem d_mission_velocity_rate__mission_altitude_rate (acceleration_horizontal
    acceleration_vertical mission_distance_rate mission_altitude_rate : ℝ) (h0 : 0 <
    mission_altitude_rate) :
    HasDerivAt (fun t => out_mission_velocity_rate acceleration_horizontal acceleration_vertical mission_distance_rate t) (J_mission_velocity_rate__mission_altitude_rate acceleration_horizontal acceleration_vertical mission_distance_rate mission_altitude_rate) mission_altitude_rate := by
  have e0 : ∀ x : ℝ, 0 < x → x ^ ((3 / 2) : ℝ) = x ^ ((1 / 2) : ℝ) * x ^ 1 := fun x hx => rpow_up hx 1 (by norm_num)
  simp only [out_mission_velocity_rate, J_mission_velocity_rate__mission_altitude_rate, num, den, fact, v_mag, sqrt_eq_rpow]
  (apply hasDerivAt_of_eq; on_goal 1 => (repeat' comp_step))
  all_goals try comp_side
  all_goals try simp (disch := first | assumption | positivity) only [e0, div_mul_eq_div_div, div_half, inv_half]
  all_goals try simp only [mul_zero, zero_mul, add_zero, zero_add, sub_zero, zero_sub, mul_one, one_mul]
  all_goals try push_cast
  all_goals comp_eq

/-- Every partial derivative set by `VelocityRate` is the derivative of its output. -/
theorem partials (acceleration_horizontal acceleration_vertical mission_distance_rate
    mission_altitude_rate : ℝ) (h0 : 0 < mission_altitude_rate) :
    HasDerivAt (fun t => out_mission_velocity_rate t acceleration_vertical mission_distance_rate
      mission_altitude_rate) (J_mission_velocity_rate__acceleration_horizontal
      mission_distance_rate mission_altitude_rate) acceleration_horizontal ∧
    HasDerivAt (fun t => out_mission_velocity_rate acceleration_horizontal t mission_distance_rate
      mission_altitude_rate) (J_mission_velocity_rate__acceleration_vertical mission_distance_rate
      mission_altitude_rate) acceleration_vertical ∧
    HasDerivAt (fun t => out_mission_velocity_rate acceleration_horizontal acceleration_vertical t
      mission_altitude_rate) (J_mission_velocity_rate__mission_distance_rate
      acceleration_horizontal acceleration_vertical mission_distance_rate mission_altitude_rate)
      mission_distance_rate ∧
    HasDerivAt (fun t => out_mission_velocity_rate acceleration_horizontal acceleration_vertical
      mission_distance_rate t) (J_mission_velocity_rate__mission_altitude_rate
      acceleration_horizontal acceleration_vertical mission_distance_rate mission_altitude_rate)
      mission_altitude_rate :=
  ⟨d_mission_velocity_rate__acceleration_horizontal _ _ _ _ h0,
    d_mission_velocity_rate__acceleration_vertical _ _ _ _ h0,
    d_mission_velocity_rate__mission_distance_rate _ _ _ _ h0,
    d_mission_velocity_rate__mission_altitude_rate _ _ _ _ h0⟩

example : ∃ acceleration_horizontal acceleration_vertical mission_distance_rate
      mission_altitude_rate : ℝ,
      0 < mission_altitude_rate :=
  ⟨0, 0, 0, 1, by comp_example⟩

end Verif.Comp.MissionEnergyStateOdeTakeoffEom.VelocityRate

