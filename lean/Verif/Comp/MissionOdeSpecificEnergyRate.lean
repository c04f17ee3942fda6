import Verif.Lemmas.CompDeriv

/-! # Partial derivatives of the components of `aviary/mission/ode/specific_energy_rate.py`

One node of a vector component is modelled over the real numbers.  Each option that selects a
branch is fixed, one namespace per choice.  `out_x` is the output `x`, `J_x__y` the entry that
`compute_partials` (or `declare_partials` with `val`) assigns, `d_x__y` the proof that the entry is
the derivative.  Inputs an output does not take as argument have no influence on it. -/

set_option linter.all false

namespace Verif.Comp.MissionOdeSpecificEnergyRate.SpecificEnergyRate
open Real

/-- aviary/mission/ode/specific_energy_rate.py:66 -/
noncomputable def weight (gravity vehicle_mass : ℝ) : ℝ := vehicle_mass * gravity

/-- Output `mission_specific_energy_rate` of `SpecificEnergyRate.compute`, aviary/mission/ode/specific_energy_rate.py:67 -/
noncomputable def out_mission_specific_energy_rate (gravity mission_velocity vehicle_propulsion_thrust_total vehicle_drag vehicle_mass : ℝ) : ℝ :=
  (mission_velocity * (vehicle_propulsion_thrust_total - vehicle_drag)) / (weight gravity
    vehicle_mass)

/-- Partial of `mission_specific_energy_rate` with respect to `mission_velocity` as set by `SpecificEnergyRate`, aviary/mission/ode/specific_energy_rate.py:77 -/
noncomputable def J_mission_specific_energy_rate__mission_velocity (gravity vehicle_propulsion_thrust_total vehicle_drag vehicle_mass : ℝ) : ℝ :=
  (vehicle_propulsion_thrust_total - vehicle_drag) / (weight gravity vehicle_mass)

/-- Partial of `mission_specific_energy_rate` with respect to `vehicle_propulsion_thrust_total` as set by `SpecificEnergyRate`, aviary/mission/ode/specific_energy_rate.py:78 -/
noncomputable def J_mission_specific_energy_rate__vehicle_propulsion_thrust_total (gravity mission_velocity vehicle_mass : ℝ) : ℝ :=
  mission_velocity / (weight gravity vehicle_mass)

/-- Partial of `mission_specific_energy_rate` with respect to `vehicle_drag` as set by `SpecificEnergyRate`, aviary/mission/ode/specific_energy_rate.py:82 -/
noncomputable def J_mission_specific_energy_rate__vehicle_drag (gravity mission_velocity vehicle_mass : ℝ) : ℝ :=
  (-mission_velocity) / (weight gravity vehicle_mass)

/-- Partial of `mission_specific_energy_rate` with respect to `vehicle_mass` as set by `SpecificEnergyRate`, aviary/mission/ode/specific_energy_rate.py:83 -/
noncomputable def J_mission_specific_energy_rate__vehicle_mass (gravity mission_velocity vehicle_propulsion_thrust_total vehicle_drag vehicle_mass : ℝ) : ℝ :=
  (((-gravity) * mission_velocity) * (vehicle_propulsion_thrust_total - vehicle_drag)) /
    ((weight gravity vehicle_mass) ^ 2)

theorem d_mission_specific_energy_rate__mission_velocity (gravity mission_velocity
    vehicle_propulsion_thrust_total vehicle_drag vehicle_mass : ℝ) (h0 : 0 < vehicle_mass) (h1 : 0
    < gravity) :
    HasDerivAt (fun t => out_mission_specific_energy_rate gravity t vehicle_propulsion_thrust_total vehicle_drag vehicle_mass) (J_mission_specific_energy_rate__mission_velocity gravity vehicle_propulsion_thrust_total vehicle_drag vehicle_mass) mission_velocity := by
  simp only [out_mission_specific_energy_rate, J_mission_specific_energy_rate__mission_velocity, weight]
  (apply hasDerivAt_of_eq; on_goal 1 => (repeat' comp_step))
  all_goals try comp_side
  all_goals try simp only [mul_zero, zero_mul, add_zero, zero_add, sub_zero, zero_sub, mul_one, one_mul]
  all_goals try push_cast
  all_goals comp_eq

theorem d_mission_specific_energy_rate__vehicle_propulsion_thrust_total (gravity mission_velocity
    vehicle_propulsion_thrust_total vehicle_drag vehicle_mass : ℝ) (h0 : 0 < vehicle_mass) (h1 : 0
    < gravity) :
    HasDerivAt (fun t => out_mission_specific_energy_rate gravity mission_velocity t vehicle_drag vehicle_mass) (J_mission_specific_energy_rate__vehicle_propulsion_thrust_total gravity mission_velocity vehicle_mass) vehicle_propulsion_thrust_total := by
  simp only [out_mission_specific_energy_rate, J_mission_specific_energy_rate__vehicle_propulsion_thrust_total, weight]
  (apply hasDerivAt_of_eq; on_goal 1 => (repeat' comp_step))
  all_goals try comp_side
  all_goals try simp only [mul_zero, zero_mul, add_zero, zero_add, sub_zero, zero_sub, mul_one, one_mul]
  all_goals try push_cast
  all_goals comp_eq

theorem d_mission_specific_energy_rate__vehicle_drag (gravity mission_velocity
    vehicle_propulsion_thrust_total vehicle_drag vehicle_mass : ℝ) (h0 : 0 < vehicle_mass) (h1 : 0
    < gravity) :
    HasDerivAt (fun t => out_mission_specific_energy_rate gravity mission_velocity vehicle_propulsion_thrust_total t vehicle_mass) (J_mission_specific_energy_rate__vehicle_drag gravity mission_velocity vehicle_mass) vehicle_drag := by
  simp only [out_mission_specific_energy_rate, J_mission_specific_energy_rate__vehicle_drag, weight]
  (apply hasDerivAt_of_eq; on_goal 1 => (repeat' comp_step))
  all_goals try comp_side
  all_goals try simp only [mul_zero, zero_mul, add_zero, zero_add, sub_zero, zero_sub, mul_one, one_mul]
  all_goals try push_cast
  all_goals comp_eq

theorem d_mission_specific_energy_rate__vehicle_mass (gravity mission_velocity
    vehicle_propulsion_thrust_total vehicle_drag vehicle_mass : ℝ) (h0 : 0 < vehicle_mass) (h1 : 0
    < gravity) :
    HasDerivAt (fun t => out_mission_specific_energy_rate gravity mission_velocity vehicle_propulsion_thrust_total vehicle_drag t) (J_mission_specific_energy_rate__vehicle_mass gravity mission_velocity vehicle_propulsion_thrust_total vehicle_drag vehicle_mass) vehicle_mass := by
  simp only [out_mission_specific_energy_rate, J_mission_specific_energy_rate__vehicle_mass, weight]
  (apply hasDerivAt_of_eq; on_goal 1 => (repeat' comp_step))
  all_goals try comp_side
  all_goals try simp only [mul_zero, zero_mul, add_zero, zero_add, sub_zero, zero_sub, mul_one, one_mul]
  all_goals try push_cast
  all_goals comp_eq

/-- Every partial derivative set by `SpecificEnergyRate` is the derivative of its output. -/
theorem partials (gravity mission_velocity vehicle_propulsion_thrust_total vehicle_drag
    vehicle_mass : ℝ) (h0 : 0 < vehicle_mass) (h1 : 0 < gravity) :
    HasDerivAt (fun t => out_mission_specific_energy_rate gravity t vehicle_propulsion_thrust_total
      vehicle_drag vehicle_mass) (J_mission_specific_energy_rate__mission_velocity gravity
      vehicle_propulsion_thrust_total vehicle_drag vehicle_mass) mission_velocity ∧
    HasDerivAt (fun t => out_mission_specific_energy_rate gravity mission_velocity t vehicle_drag
      vehicle_mass) (J_mission_specific_energy_rate__vehicle_propulsion_thrust_total gravity
      mission_velocity vehicle_mass) vehicle_propulsion_thrust_total ∧
    HasDerivAt (fun t => out_mission_specific_energy_rate gravity mission_velocity
      vehicle_propulsion_thrust_total t vehicle_mass)
      (J_mission_specific_energy_rate__vehicle_drag gravity mission_velocity vehicle_mass)
      vehicle_drag ∧
    HasDerivAt (fun t => out_mission_specific_energy_rate gravity mission_velocity
      vehicle_propulsion_thrust_total vehicle_drag t)
      (J_mission_specific_energy_rate__vehicle_mass gravity mission_velocity
      vehicle_propulsion_thrust_total vehicle_drag vehicle_mass) vehicle_mass :=
  ⟨d_mission_specific_energy_rate__mission_velocity _ _ _ _ _ h0 h1,
    d_mission_specific_energy_rate__vehicle_propulsion_thrust_total _ _ _ _ _ h0 h1,
    d_mission_specific_energy_rate__vehicle_drag _ _ _ _ _ h0 h1,
    d_mission_specific_energy_rate__vehicle_mass _ _ _ _ _ h0 h1⟩

example : ∃ gravity mission_velocity vehicle_propulsion_thrust_total vehicle_drag vehicle_mass :
      ℝ,
      0 < vehicle_mass ∧
      0 < gravity :=
  ⟨1, 0, 0, 0, 1, by comp_example, by comp_example⟩

end Verif.Comp.MissionOdeSpecificEnergyRate.SpecificEnergyRate

