import Verif.Lemmas.CompDeriv

/-! # Partial derivatives of the components of `aviary/subsystems/energy/battery_sizing.py`

One node of a vector component is modelled over the real numbers.  Each option that selects a
branch is fixed, one namespace per choice.  `out_x` is the output `x`, `J_x__y` the entry that
`compute_partials` (or `declare_partials` with `val`) assigns, `d_x__y` the proof that the entry is
the derivative.  Inputs an output does not take as argument have no influence on it. -/

set_option linter.all false

namespace Verif.Comp.EnergyBatterySizing.SizeBattery
open Real

/-- aviary/subsystems/energy/battery_sizing.py:44 -/
noncomputable def total_mass (battery_additional_mass battery_pack_mass : ℝ) : ℝ :=
  battery_pack_mass + battery_additional_mass

/-- aviary/subsystems/energy/battery_sizing.py:45 -/
noncomputable def total_energy (battery_pack_energy_density battery_pack_mass : ℝ) : ℝ :=
  battery_pack_mass * battery_pack_energy_density

/-- Output `battery_mass` of `SizeBattery.compute`, aviary/subsystems/energy/battery_sizing.py:47 -/
noncomputable def out_battery_mass (battery_additional_mass battery_pack_mass : ℝ) : ℝ :=
  total_mass battery_additional_mass battery_pack_mass

/-- Output `battery_energy_capacity` of `SizeBattery.compute`, aviary/subsystems/energy/battery_sizing.py:48 -/
noncomputable def out_battery_energy_capacity (battery_pack_energy_density battery_pack_mass : ℝ) : ℝ :=
  total_energy battery_pack_energy_density battery_pack_mass

/-- Partial of `battery_mass` with respect to `battery_additional_mass` as set by `SizeBattery`, aviary/subsystems/energy/battery_sizing.py:56 -/
noncomputable def J_battery_mass__battery_additional_mass : ℝ := 1

/-- Partial of `battery_mass` with respect to `battery_pack_mass` as set by `SizeBattery`, aviary/subsystems/energy/battery_sizing.py:57 -/
noncomputable def J_battery_mass__battery_pack_mass : ℝ := 1

/-- Partial of `battery_energy_capacity` with respect to `battery_pack_energy_density` as set by `SizeBattery`, aviary/subsystems/energy/battery_sizing.py:63 -/
noncomputable def J_battery_energy_capacity__battery_pack_energy_density (battery_pack_mass : ℝ) : ℝ :=
  battery_pack_mass

/-- Partial of `battery_energy_capacity` with respect to `battery_pack_mass` as set by `SizeBattery`, aviary/subsystems/energy/battery_sizing.py:64 -/
noncomputable def J_battery_energy_capacity__battery_pack_mass (battery_pack_energy_density : ℝ) : ℝ :=
  battery_pack_energy_density

theorem d_battery_mass__battery_additional_mass (battery_additional_mass battery_pack_mass : ℝ)  :
    HasDerivAt (fun t => out_battery_mass t battery_pack_mass) (J_battery_mass__battery_additional_mass) battery_additional_mass := by
  simp only [out_battery_mass, J_battery_mass__battery_additional_mass, total_mass]
  (apply hasDerivAt_of_eq; on_goal 1 => (repeat' comp_step))
  all_goals try comp_side
  all_goals try simp only [mul_zero, zero_mul, add_zero, zero_add, sub_zero, zero_sub, mul_one, one_mul]
  all_goals try push_cast
  all_goals comp_eq

theorem d_battery_mass__battery_pack_mass (battery_additional_mass battery_pack_mass : ℝ)  :
    HasDerivAt (fun t => out_battery_mass battery_additional_mass t) (J_battery_mass__battery_pack_mass) battery_pack_mass := by
  simp only [out_battery_mass, J_battery_mass__battery_pack_mass, total_mass]
  (apply hasDerivAt_of_eq; on_goal 1 => (repeat' comp_step))
  all_goals try comp_side
  all_goals try simp only [mul_zero, zero_mul, add_zero, zero_add, sub_zero, zero_sub, mul_one, one_mul]
  all_goals try push_cast
  all_goals comp_eq

theorem d_battery_energy_capacity__battery_pack_energy_density (battery_pack_energy_density
    battery_pack_mass : ℝ)  :
    HasDerivAt (fun t => out_battery_energy_capacity t battery_pack_mass) (J_battery_energy_capacity__battery_pack_energy_density battery_pack_mass) battery_pack_energy_density := by
  simp only [out_battery_energy_capacity, J_battery_energy_capacity__battery_pack_energy_density, total_energy]
  (apply hasDerivAt_of_eq; on_goal 1 => (repeat' comp_step))
  all_goals try comp_side
  all_goals try simp only [mul_zero, zero_mul, add_zero, zero_add, sub_zero, zero_sub, mul_one, one_mul]
  all_goals try push_cast
  all_goals comp_eq

theorem d_battery_energy_capacity__battery_pack_mass (battery_pack_energy_density
    battery_pack_mass : ℝ)  :
    HasDerivAt (fun t => out_battery_energy_capacity battery_pack_energy_density t) (J_battery_energy_capacity__battery_pack_mass battery_pack_energy_density) battery_pack_mass := by
  simp only [out_battery_energy_capacity, J_battery_energy_capacity__battery_pack_mass, total_energy]
  (apply hasDerivAt_of_eq; on_goal 1 => (repeat' comp_step))
  all_goals try comp_side
  all_goals try simp only [mul_zero, zero_mul, add_zero, zero_add, sub_zero, zero_sub, mul_one, one_mul]
  all_goals try push_cast
  all_goals comp_eq

/-- Every partial derivative set by `SizeBattery` is the derivative of its output. -/
theorem partials (battery_pack_energy_density battery_additional_mass battery_pack_mass : ℝ) :
    HasDerivAt (fun t => out_battery_mass t battery_pack_mass)
      (J_battery_mass__battery_additional_mass) battery_additional_mass ∧
    HasDerivAt (fun t => out_battery_mass battery_additional_mass t)
      (J_battery_mass__battery_pack_mass) battery_pack_mass ∧
    HasDerivAt (fun t => out_battery_energy_capacity t battery_pack_mass)
      (J_battery_energy_capacity__battery_pack_energy_density battery_pack_mass)
      battery_pack_energy_density ∧
    HasDerivAt (fun t => out_battery_energy_capacity battery_pack_energy_density t)
      (J_battery_energy_capacity__battery_pack_mass battery_pack_energy_density) battery_pack_mass :=
  ⟨d_battery_mass__battery_additional_mass _ _, d_battery_mass__battery_pack_mass _ _,
    d_battery_energy_capacity__battery_pack_energy_density _ _,
    d_battery_energy_capacity__battery_pack_mass _ _⟩

end Verif.Comp.EnergyBatterySizing.SizeBattery

