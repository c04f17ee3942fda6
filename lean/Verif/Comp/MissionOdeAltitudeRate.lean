import Verif.Lemmas.CompDeriv

/-! # Partial derivatives of the components of `aviary/mission/ode/altitude_rate.py`

One node of a vector component is modelled over the real numbers.  Each option that selects a
branch is fixed, one namespace per choice.  `out_x` is the output `x`, `J_x__y` the entry that
`compute_partials` (or `declare_partials` with `val`) assigns, `d_x__y` the proof that the entry is
the derivative.  Inputs an output does not take as argument have no influence on it. -/

set_option linter.all false

namespace Verif.Comp.MissionOdeAltitudeRate.AltitudeRate
open Real

/-- Output `mission_altitude_rate` of `AltitudeRate.compute`, aviary/mission/ode/altitude_rate.py:66 -/
noncomputable def out_mission_altitude_rate (gravity mission_specific_energy_rate mission_velocity_rate mission_velocity : ℝ) : ℝ :=
  mission_specific_energy_rate - ((mission_velocity * mission_velocity_rate) / gravity)

/-- Partial of `mission_altitude_rate` with respect to `mission_specific_energy_rate` as set by `AltitudeRate`, aviary/mission/ode/altitude_rate.py:48 -/
noncomputable def J_mission_altitude_rate__mission_specific_energy_rate : ℝ := 1

/-- Partial of `mission_altitude_rate` with respect to `mission_velocity_rate` as set by `AltitudeRate`, aviary/mission/ode/altitude_rate.py:75 -/
noncomputable def J_mission_altitude_rate__mission_velocity_rate (gravity mission_velocity : ℝ) : ℝ :=
  (-mission_velocity) / gravity

/-- Partial of `mission_altitude_rate` with respect to `mission_velocity` as set by `AltitudeRate`, aviary/mission/ode/altitude_rate.py:76 -/
noncomputable def J_mission_altitude_rate__mission_velocity (gravity mission_velocity_rate : ℝ) : ℝ :=
  (-mission_velocity_rate) / gravity

theorem d_mission_altitude_rate__mission_specific_energy_rate (gravity
    mission_specific_energy_rate mission_velocity_rate mission_velocity : ℝ) (h0 : 0 < gravity) :
    HasDerivAt (fun t => out_mission_altitude_rate gravity t mission_velocity_rate mission_velocity) (J_mission_altitude_rate__mission_specific_energy_rate) mission_specific_energy_rate := by
  simp only [out_mission_altitude_rate, J_mission_altitude_rate__mission_specific_energy_rate]
  (apply hasDerivAt_of_eq; on_goal 1 => (repeat' comp_step))
  all_goals try comp_side
  all_goals try simp only [mul_zero, zero_mul, add_zero, zero_add, sub_zero, zero_sub, mul_one, one_mul]
  all_goals try push_cast
  all_goals comp_eq

theorem d_mission_altitude_rate__mission_velocity_rate (gravity mission_specific_energy_rate
    mission_velocity_rate mission_velocity : ℝ) (h0 : 0 < gravity) :
    HasDerivAt (fun t => out_mission_altitude_rate gravity mission_specific_energy_rate t mission_velocity) (J_mission_altitude_rate__mission_velocity_rate gravity mission_velocity) mission_velocity_rate := by
  simp only [out_mission_altitude_rate, J_mission_altitude_rate__mission_velocity_rate]
  (apply hasDerivAt_of_eq; on_goal 1 => (repeat' comp_step))
  all_goals try comp_side
  all_goals try simp only [mul_zero, zero_mul, add_zero, zero_add, sub_zero, zero_sub, mul_one, one_mul]
  all_goals try push_cast
  all_goals comp_eq

theorem d_mission_altitude_rate__mission_velocity (gravity mission_specific_energy_rate
    mission_velocity_rate mission_velocity : ℝ) (h0 : 0 < gravity) :
    HasDerivAt (fun t => out_mission_altitude_rate gravity mission_specific_energy_rate mission_velocity_rate t) (J_mission_altitude_rate__mission_velocity gravity mission_velocity_rate) mission_velocity := by
  simp only [out_mission_altitude_rate, J_mission_altitude_rate__mission_velocity]
  (apply hasDerivAt_of_eq; on_goal 1 => (repeat' comp_step))
  all_goals try comp_side
  all_goals try simp only [mul_zero, zero_mul, add_zero, zero_add, sub_zero, zero_sub, mul_one, one_mul]
  all_goals try push_cast
  all_goals comp_eq

/-- Every partial derivative set by `AltitudeRate` is the derivative of its output. -/
theorem partials (gravity mission_specific_energy_rate mission_velocity_rate mission_velocity : ℝ)
    (h0 : 0 < gravity) :
    HasDerivAt (fun t => out_mission_altitude_rate gravity t mission_velocity_rate mission_velocity)
      (J_mission_altitude_rate__mission_specific_energy_rate) mission_specific_energy_rate ∧
    HasDerivAt (fun t => out_mission_altitude_rate gravity mission_specific_energy_rate t
      mission_velocity) (J_mission_altitude_rate__mission_velocity_rate gravity mission_velocity)
      mission_velocity_rate ∧
    HasDerivAt (fun t => out_mission_altitude_rate gravity mission_specific_energy_rate
      mission_velocity_rate t) (J_mission_altitude_rate__mission_velocity gravity
      mission_velocity_rate) mission_velocity :=
  ⟨d_mission_altitude_rate__mission_specific_energy_rate _ _ _ _ h0,
    d_mission_altitude_rate__mission_velocity_rate _ _ _ _ h0,
    d_mission_altitude_rate__mission_velocity _ _ _ _ h0⟩

example : ∃ gravity mission_specific_energy_rate mission_velocity_rate mission_velocity : ℝ,
      0 < gravity :=
  ⟨1, 0, 0, 0, by comp_example⟩

end Verif.Comp.MissionOdeAltitudeRate.AltitudeRate

