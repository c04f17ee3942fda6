import Verif.Lemmas.CompDeriv

/-! # Partial derivatives of the components of `aviary/mission/two_dof/ode/accel_eom.py`

One node of a vector component is modelled over the real numbers.  Each option that selects a
branch is fixed, one namespace per choice.  `out_x` is the output `x`, `J_x__y` the entry that
`compute_partials` (or `declare_partials` with `val`) assigns, `d_x__y` the proof that the entry is
the derivative.  Inputs an output does not take as argument have no influence on it. -/

set_option linter.all false

namespace Verif.Comp.MissionTwoDofOdeAccelEom.AccelerationRates
open Real

/-- Output `mission_velocity_rate` of `AccelerationRates.compute`, aviary/mission/two_dof/ode/accel_eom.py:91 -/
noncomputable def out_mission_velocity_rate (gravity vehicle_mass vehicle_drag vehicle_propulsion_thrust_total : ℝ) : ℝ :=
  (gravity / vehicle_mass) * (vehicle_propulsion_thrust_total - vehicle_drag)

/-- Output `mission_distance_rate` of `AccelerationRates.compute`, aviary/mission/two_dof/ode/accel_eom.py:92 -/
noncomputable def out_mission_distance_rate (mission_velocity : ℝ) : ℝ := mission_velocity

/-- Partial of `mission_distance_rate` with respect to `mission_velocity` as set by `AccelerationRates`, aviary/mission/two_dof/ode/accel_eom.py:75 -/
noncomputable def J_mission_distance_rate__mission_velocity : ℝ := 1

/-- Partial of `mission_velocity_rate` with respect to `vehicle_mass` as set by `AccelerationRates`, aviary/mission/two_dof/ode/accel_eom.py:100 -/
noncomputable def J_mission_velocity_rate__vehicle_mass (gravity vehicle_mass vehicle_drag vehicle_propulsion_thrust_total : ℝ) : ℝ :=
  (-(gravity / (vehicle_mass ^ 2))) * (vehicle_propulsion_thrust_total - vehicle_drag)

/-- Partial of `mission_velocity_rate` with respect to `vehicle_drag` as set by `AccelerationRates`, aviary/mission/two_dof/ode/accel_eom.py:103 -/
noncomputable def J_mission_velocity_rate__vehicle_drag (gravity vehicle_mass : ℝ) : ℝ :=
  -(gravity / vehicle_mass)

/-- Partial of `mission_velocity_rate` with respect to `vehicle_propulsion_thrust_total` as set by `AccelerationRates`, aviary/mission/two_dof/ode/accel_eom.py:104 -/
noncomputable def J_mission_velocity_rate__vehicle_propulsion_thrust_total (gravity vehicle_mass : ℝ) : ℝ :=
  gravity / vehicle_mass

theorem d_mission_velocity_rate__vehicle_mass (gravity vehicle_mass vehicle_drag
    vehicle_propulsion_thrust_total : ℝ) (h0 : 0 < vehicle_mass) :
    HasDerivAt (fun t => out_mission_velocity_rate gravity t vehicle_drag vehicle_propulsion_thrust_total) (J_mission_velocity_rate__vehicle_mass gravity vehicle_mass vehicle_drag vehicle_propulsion_thrust_total) vehicle_mass := by
  simp only [out_mission_velocity_rate, J_mission_velocity_rate__vehicle_mass]
  (apply hasDerivAt_of_eq; on_goal 1 => (repeat' comp_step))
  all_goals try comp_side
  all_goals try simp only [mul_zero, zero_mul, add_zero, zero_add, sub_zero, zero_sub, mul_one, one_mul]
  all_goals try push_cast
  all_goals comp_eq

theorem d_mission_velocity_rate__vehicle_drag (gravity vehicle_mass vehicle_drag
    vehicle_propulsion_thrust_total : ℝ) (h0 : 0 < vehicle_mass) :
    HasDerivAt (fun t => out_mission_velocity_rate gravity vehicle_mass t vehicle_propulsion_thrust_total) (J_mission_velocity_rate__vehicle_drag gravity vehicle_mass) vehicle_drag := by
  simp only [out_mission_velocity_rate, J_mission_velocity_rate__vehicle_drag]
  (apply hasDerivAt_of_eq; on_goal 1 => (repeat' comp_step))
  all_goals try comp_side
  all_goals try simp only [mul_zero, zero_mul, add_zero, zero_add, sub_zero, zero_sub, mul_one, one_mul]
  all_goals try push_cast
  all_goals comp_eq

theorem d_mission_velocity_rate__vehicle_propulsion_thrust_total (gravity vehicle_mass
    vehicle_drag vehicle_propulsion_thrust_total : ℝ) (h0 : 0 < vehicle_mass) :
    HasDerivAt (fun t => out_mission_velocity_rate gravity vehicle_mass vehicle_drag t) (J_mission_velocity_rate__vehicle_propulsion_thrust_total gravity vehicle_mass) vehicle_propulsion_thrust_total := by
  simp only [out_mission_velocity_rate, J_mission_velocity_rate__vehicle_propulsion_thrust_total]
  (apply hasDerivAt_of_eq; on_goal 1 => (repeat' comp_step))
  all_goals try comp_side
  all_goals try simp only [mul_zero, zero_mul, add_zero, zero_add, sub_zero, zero_sub, mul_one, one_mul]
  all_goals try push_cast
  all_goals comp_eq

theorem d_mission_distance_rate__mission_velocity (mission_velocity : ℝ)  :
    HasDerivAt (fun t => out_mission_distance_rate t) (J_mission_distance_rate__mission_velocity) mission_velocity := by
  simp only [out_mission_distance_rate, J_mission_distance_rate__mission_velocity]
  (apply hasDerivAt_of_eq; on_goal 1 => (repeat' comp_step))
  all_goals try comp_side
  all_goals try simp only [mul_zero, zero_mul, add_zero, zero_add, sub_zero, zero_sub, mul_one, one_mul]
  all_goals try push_cast
  all_goals comp_eq

/-- Every partial derivative set by `AccelerationRates` is the derivative of its output. -/
theorem partials (gravity vehicle_mass vehicle_drag vehicle_propulsion_thrust_total
    mission_velocity : ℝ) (h0 : 0 < vehicle_mass) :
    HasDerivAt (fun t => out_mission_velocity_rate gravity t vehicle_drag
      vehicle_propulsion_thrust_total) (J_mission_velocity_rate__vehicle_mass gravity vehicle_mass
      vehicle_drag vehicle_propulsion_thrust_total) vehicle_mass ∧
    HasDerivAt (fun t => out_mission_velocity_rate gravity vehicle_mass t
      vehicle_propulsion_thrust_total) (J_mission_velocity_rate__vehicle_drag gravity
      vehicle_mass) vehicle_drag ∧
    HasDerivAt (fun t => out_mission_velocity_rate gravity vehicle_mass vehicle_drag t)
      (J_mission_velocity_rate__vehicle_propulsion_thrust_total gravity vehicle_mass)
      vehicle_propulsion_thrust_total ∧
    HasDerivAt (fun t => out_mission_distance_rate t) (J_mission_distance_rate__mission_velocity)
      mission_velocity :=
  ⟨d_mission_velocity_rate__vehicle_mass _ _ _ _ h0, d_mission_velocity_rate__vehicle_drag _ _ _ _
    h0, d_mission_velocity_rate__vehicle_propulsion_thrust_total _ _ _ _ h0,
    d_mission_distance_rate__mission_velocity _⟩

example : ∃ gravity vehicle_mass vehicle_drag vehicle_propulsion_thrust_total mission_velocity :
      ℝ,
      0 < vehicle_mass :=
  ⟨0, 1, 0, 0, 0, by comp_example⟩

end Verif.Comp.MissionTwoDofOdeAccelEom.AccelerationRates

