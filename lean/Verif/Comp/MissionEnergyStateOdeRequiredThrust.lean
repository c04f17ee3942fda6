import Verif.Lemmas.CompDeriv

/-! # Partial derivatives of the components of `aviary/mission/energy_state/ode/required_thrust.py`

One node of a vector component is modelled over the real numbers.  Each option that selects a
branch is fixed, one namespace per choice.  `out_x` is the output `x`, `J_x__y` the entry that
`compute_partials` (or `declare_partials` with `val`) assigns, `d_x__y` the proof that the entry is
the derivative.  Inputs an output does not take as argument have no influence on it. -/

set_option linter.all false

namespace Verif.Comp.MissionEnergyStateOdeRequiredThrust.RequiredThrust
open Real

/-- aviary/mission/energy_state/ode/required_thrust.py:59 -/
noncomputable def thrust_required (gravity vehicle_drag mission_altitude_rate mission_velocity mission_velocity_rate vehicle_mass : ℝ) : ℝ :=
  vehicle_drag + ((((mission_altitude_rate * gravity) / mission_velocity) +
    mission_velocity_rate) * vehicle_mass)

/-- Output `thrust_required` of `RequiredThrust.compute`, aviary/mission/energy_state/ode/required_thrust.py:61 -/
noncomputable def out_thrust_required (gravity vehicle_drag mission_altitude_rate mission_velocity mission_velocity_rate vehicle_mass : ℝ) : ℝ :=
  thrust_required gravity vehicle_drag mission_altitude_rate mission_velocity
    mission_velocity_rate vehicle_mass

/-- Partial of `thrust_required` with respect to `vehicle_drag` as set by `RequiredThrust`, aviary/mission/energy_state/ode/required_thrust.py:70 -/
noncomputable def J_thrust_required__vehicle_drag : ℝ := 1

/-- Partial of `thrust_required` with respect to `mission_altitude_rate` as set by `RequiredThrust`, aviary/mission/energy_state/ode/required_thrust.py:71 -/
noncomputable def J_thrust_required__mission_altitude_rate (gravity mission_velocity vehicle_mass : ℝ) : ℝ :=
  (gravity / mission_velocity) * vehicle_mass

/-- Partial of `thrust_required` with respect to `mission_velocity` as set by `RequiredThrust`, aviary/mission/energy_state/ode/required_thrust.py:72 -/
noncomputable def J_thrust_required__mission_velocity (gravity mission_altitude_rate mission_velocity vehicle_mass : ℝ) : ℝ :=
  (((-mission_altitude_rate) * gravity) / (mission_velocity ^ 2)) * vehicle_mass

/-- Partial of `thrust_required` with respect to `mission_velocity_rate` as set by `RequiredThrust`, aviary/mission/energy_state/ode/required_thrust.py:75 -/
noncomputable def J_thrust_required__mission_velocity_rate (vehicle_mass : ℝ) : ℝ := vehicle_mass

/-- Partial of `thrust_required` with respect to `vehicle_mass` as set by `RequiredThrust`, aviary/mission/energy_state/ode/required_thrust.py:76 -/
noncomputable def J_thrust_required__vehicle_mass (gravity mission_altitude_rate mission_velocity mission_velocity_rate : ℝ) : ℝ :=
  ((mission_altitude_rate * gravity) / mission_velocity) + mission_velocity_rate

theorem d_thrust_required__vehicle_drag (gravity vehicle_drag mission_altitude_rate
    mission_velocity mission_velocity_rate vehicle_mass : ℝ) (h0 : 0 < mission_velocity) :
    HasDerivAt (fun t => out_thrust_required gravity t mission_altitude_rate mission_velocity mission_velocity_rate vehicle_mass) (J_thrust_required__vehicle_drag) vehicle_drag := by
  simp only [out_thrust_required, J_thrust_required__vehicle_drag, thrust_required]
  (apply hasDerivAt_of_eq; on_goal 1 => (repeat' comp_step))
  all_goals try comp_side
  all_goals try simp only [mul_zero, zero_mul, add_zero, zero_add, sub_zero, zero_sub, mul_one, one_mul]
  all_goals try push_cast
  all_goals comp_eq

theorem d_thrust_required__mission_altitude_rate (gravity vehicle_drag mission_altitude_rate
    mission_velocity mission_velocity_rate vehicle_mass : ℝ) (h0 : 0 < mission_velocity) :
    HasDerivAt (fun t => out_thrust_required gravity vehicle_drag t mission_velocity mission_velocity_rate vehicle_mass) (J_thrust_required__mission_altitude_rate gravity mission_velocity vehicle_mass) mission_altitude_rate := by
  simp only [out_thrust_required, J_thrust_required__mission_altitude_rate, thrust_required]
  (apply hasDerivAt_of_eq; on_goal 1 => (repeat' comp_step))
  all_goals try comp_side
  all_goals try simp only [mul_zero, zero_mul, add_zero, zero_add, sub_zero, zero_sub, mul_one, one_mul]
  all_goals try push_cast
  all_goals comp_eq

theorem d_thrust_required__mission_velocity (gravity vehicle_drag mission_altitude_rate
    mission_velocity mission_velocity_rate vehicle_mass : ℝ) (h0 : 0 < mission_velocity) :
    HasDerivAt (fun t => out_thrust_required gravity vehicle_drag mission_altitude_rate t mission_velocity_rate vehicle_mass) (J_thrust_required__mission_velocity gravity mission_altitude_rate mission_velocity vehicle_mass) mission_velocity := by
  simp only [out_thrust_required, J_thrust_required__mission_velocity, thrust_required]
  (apply hasDerivAt_of_eq; on_goal 1 => (repeat' comp_step))
  all_goals try comp_side
  all_goals try simp only [mul_zero, zero_mul, add_zero, zero_add, sub_zero, zero_sub, mul_one, one_mul]
  all_goals try push_cast
  all_goals comp_eq

theorem d_thrust_required__mission_velocity_rate (gravity vehicle_drag mission_altitude_rate
    mission_velocity mission_velocity_rate vehicle_mass : ℝ) (h0 : 0 < mission_velocity) :
    HasDerivAt (fun t => out_thrust_required gravity vehicle_drag mission_altitude_rate mission_velocity t vehicle_mass) (J_thrust_required__mission_velocity_rate vehicle_mass) mission_velocity_rate := by
  simp only [out_thrust_required, J_thrust_required__mission_velocity_rate, thrust_required]
  (apply hasDerivAt_of_eq; on_goal 1 => (repeat' comp_step))
  all_goals try comp_side
  all_goals try simp only [mul_zero, zero_mul, add_zero, zero_add, sub_zero, zero_sub, mul_one, one_mul]
  all_goals try push_cast
  all_goals comp_eq

theorem d_thrust_required__vehicle_mass (gravity vehicle_drag mission_altitude_rate
    mission_velocity mission_velocity_rate vehicle_mass : ℝ) (h0 : 0 < mission_velocity) :
    HasDerivAt (fun t => out_thrust_required gravity vehicle_drag mission_altitude_rate mission_velocity mission_velocity_rate t) (J_thrust_required__vehicle_mass gravity mission_altitude_rate mission_velocity mission_velocity_rate) vehicle_mass := by
  simp only [out_thrust_required, J_thrust_required__vehicle_mass, thrust_required]
  (apply hasDerivAt_of_eq; on_goal 1 => (repeat' comp_step))
  all_goals try comp_side
  all_goals try simp only [mul_zero, zero_mul, add_zero, zero_add, sub_zero, zero_sub, mul_one, one_mul]
  all_goals try push_cast
  all_goals comp_eq

/-- Every partial derivative set by `RequiredThrust` is the derivative of its output. -/
theorem partials (gravity vehicle_drag mission_altitude_rate mission_velocity
    mission_velocity_rate vehicle_mass : ℝ) (h0 : 0 < mission_velocity) :
    HasDerivAt (fun t => out_thrust_required gravity t mission_altitude_rate mission_velocity
      mission_velocity_rate vehicle_mass) (J_thrust_required__vehicle_drag) vehicle_drag ∧
    HasDerivAt (fun t => out_thrust_required gravity vehicle_drag t mission_velocity
      mission_velocity_rate vehicle_mass) (J_thrust_required__mission_altitude_rate gravity
      mission_velocity vehicle_mass) mission_altitude_rate ∧
    HasDerivAt (fun t => out_thrust_required gravity vehicle_drag mission_altitude_rate t
      mission_velocity_rate vehicle_mass) (J_thrust_required__mission_velocity gravity
      mission_altitude_rate mission_velocity vehicle_mass) mission_velocity ∧
    HasDerivAt (fun t => out_thrust_required gravity vehicle_drag mission_altitude_rate
      mission_velocity t vehicle_mass) (J_thrust_required__mission_velocity_rate vehicle_mass)
      mission_velocity_rate ∧
    HasDerivAt (fun t => out_thrust_required gravity vehicle_drag mission_altitude_rate
      mission_velocity mission_velocity_rate t) (J_thrust_required__vehicle_mass gravity
      mission_altitude_rate mission_velocity mission_velocity_rate) vehicle_mass :=
  ⟨d_thrust_required__vehicle_drag _ _ _ _ _ _ h0, d_thrust_required__mission_altitude_rate _ _ _
    _ _ _ h0, d_thrust_required__mission_velocity _ _ _ _ _ _ h0,
    d_thrust_required__mission_velocity_rate _ _ _ _ _ _ h0, d_thrust_required__vehicle_mass _ _ _
    _ _ _ h0⟩

example : ∃ gravity vehicle_drag mission_altitude_rate mission_velocity mission_velocity_rate
      vehicle_mass : ℝ,
      0 < mission_velocity :=
  ⟨0, 0, 0, 1, 0, 0, by comp_example⟩

end Verif.Comp.MissionEnergyStateOdeRequiredThrust.RequiredThrust

