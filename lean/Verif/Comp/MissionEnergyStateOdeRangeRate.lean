import Verif.Lemmas.CompDeriv

/-! # Partial derivatives of the components of `aviary/mission/energy_state/ode/range_rate.py`

One node of a vector component is modelled over the real numbers.  Each option that selects a
branch is fixed, one namespace per choice.  `out_x` is the output `x`, `J_x__y` the entry that
`compute_partials` (or `declare_partials` with `val`) assigns, `d_x__y` the proof that the entry is
the derivative.  Inputs an output does not take as argument have no influence on it.

* `RangeRate`: line 47: raise branch excluded -/

set_option linter.all false

namespace Verif.Comp.MissionEnergyStateOdeRangeRate.RangeRate
open Real

/-- aviary/mission/energy_state/ode/range_rate.py:45 -/
noncomputable def climb_rate_2 (mission_altitude_rate : ℝ) : ℝ := mission_altitude_rate ^ 2

/-- aviary/mission/energy_state/ode/range_rate.py:46 -/
noncomputable def velocity_2 (mission_velocity : ℝ) : ℝ := mission_velocity ^ 2

/-- Output `mission_distance_rate` of `RangeRate.compute`, aviary/mission/energy_state/ode/range_rate.py:49 -/
noncomputable def out_mission_distance_rate (mission_altitude_rate mission_velocity : ℝ) : ℝ :=
  ((velocity_2 mission_velocity) - (climb_rate_2 mission_altitude_rate)) ^ ((1 / 2) : ℝ)

/-- Partial of `mission_distance_rate` with respect to `mission_altitude_rate` as set by `RangeRate`, aviary/mission/energy_state/ode/range_rate.py:64 -/
noncomputable def J_mission_distance_rate__mission_altitude_rate (mission_altitude_rate mission_velocity : ℝ) : ℝ :=
  (-mission_altitude_rate) / (((mission_velocity ^ 2) - (mission_altitude_rate ^ 2)) ^ ((1 / 2)
    : ℝ))

/-- Partial of `mission_distance_rate` with respect to `mission_velocity` as set by `RangeRate`, aviary/mission/energy_state/ode/range_rate.py:67 -/
noncomputable def J_mission_distance_rate__mission_velocity (mission_altitude_rate mission_velocity : ℝ) : ℝ :=
  mission_velocity / (((mission_velocity ^ 2) - (mission_altitude_rate ^ 2)) ^ ((1 / 2) : ℝ))

theorem d_mission_distance_rate__mission_altitude_rate (mission_altitude_rate mission_velocity :
    ℝ) (h0 : 0 < (mission_velocity ^ 2) - (mission_altitude_rate ^ 2)) (h1 : 0 < (mission_velocity
    ^ 2) - (mission_altitude_rate ^ 2)) :
    HasDerivAt (fun t => out_mission_distance_rate t mission_velocity) (J_mission_distance_rate__mission_altitude_rate mission_altitude_rate mission_velocity) mission_altitude_rate := by
  simp only [out_mission_distance_rate, J_mission_distance_rate__mission_altitude_rate, climb_rate_2, velocity_2]
  (apply hasDerivAt_of_eq; on_goal 1 => (repeat' comp_step))
  all_goals try comp_side
  all_goals try simp (disch := first | assumption | positivity) only [div_mul_eq_div_div, div_half, inv_half]
  all_goals try simp only [mul_zero, zero_mul, add_zero, zero_add, sub_zero, zero_sub, mul_one, one_mul]
  all_goals try push_cast
  all_goals comp_eq

theorem d_mission_distance_rate__mission_velocity (mission_altitude_rate mission_velocity : ℝ) (h0
    : 0 < (mission_velocity ^ 2) - (mission_altitude_rate ^ 2)) (h1 : 0 < (mission_velocity ^ 2) -
    (mission_altitude_rate ^ 2)) :
    HasDerivAt (fun t => out_mission_distance_rate mission_altitude_rate t) (J_mission_distance_rate__mission_velocity mission_altitude_rate mission_velocity) mission_velocity := by
  simp only [out_mission_distance_rate, J_mission_distance_rate__mission_velocity, climb_rate_2, velocity_2]
  (apply hasDerivAt_of_eq; on_goal 1 => (repeat' comp_step))
  all_goals try comp_side
  all_goals try simp (disch := first | assumption | positivity) only [div_mul_eq_div_div, div_half, inv_half]
  all_goals try simp only [mul_zero, zero_mul, add_zero, zero_add, sub_zero, zero_sub, mul_one, one_mul]
  all_goals try push_cast
  all_goals comp_eq

/-- Every partial derivative set by `RangeRate` is the derivative of its output. -/
theorem partials (mission_altitude_rate mission_velocity : ℝ) (h0 : 0 < (mission_velocity ^ 2) -
    (mission_altitude_rate ^ 2)) :
    HasDerivAt (fun t => out_mission_distance_rate t mission_velocity)
      (J_mission_distance_rate__mission_altitude_rate mission_altitude_rate mission_velocity)
      mission_altitude_rate ∧
    HasDerivAt (fun t => out_mission_distance_rate mission_altitude_rate t)
      (J_mission_distance_rate__mission_velocity mission_altitude_rate mission_velocity)
      mission_velocity :=
  ⟨d_mission_distance_rate__mission_altitude_rate _ _ h0 h0,
    d_mission_distance_rate__mission_velocity _ _ h0 h0⟩

example : ∃ mission_altitude_rate mission_velocity : ℝ,
      0 < (mission_velocity ^ 2) - (mission_altitude_rate ^ 2) :=
  ⟨0, 1, by comp_example⟩

end Verif.Comp.MissionEnergyStateOdeRangeRate.RangeRate

