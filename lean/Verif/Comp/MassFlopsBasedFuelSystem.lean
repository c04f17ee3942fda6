import Verif.Lemmas.CompDeriv

/-! # Partial derivatives of the components of `aviary/subsystems/mass/flops_based/fuel_system.py`

One node of a vector component is modelled over the real numbers.  Each option that selects a
branch is fixed, one namespace per choice.  `out_x` is the output `x`, `J_x__y` the entry that
`compute_partials` (or `declare_partials` with `val`) assigns, `d_x__y` the proof that the entry is
the derivative.  Inputs an output does not take as argument have no influence on it.

* `TransportFuelSystemMass`: entries that differ from the derivative: `fuel_fuel_system_mass` by
  `fuel_max_capacity_mass` -/

set_option linter.all false

namespace Verif.Comp.MassFlopsBasedFuelSystem.AltFuelSystemMass
open Real

/-- aviary/subsystems/mass/flops_based/fuel_system.py:86 -/
noncomputable def fuel_sys_weight (fuel_num_tanks fuel_max_capacity_mass fuel_fuel_system_mass_scaler : ℝ) : ℝ :=
  (((((4893 / 5) * (fuel_num_tanks / 13)) + ((11417 / 5) * ((fuel_max_capacity_mass / 208100) ^
    ((2 / 3) : ℝ)))) + 350) + ((29 / 100000) * fuel_max_capacity_mass)) *
    fuel_fuel_system_mass_scaler

/-- Output `fuel_fuel_system_mass` of `AltFuelSystemMass.compute`, aviary/subsystems/mass/flops_based/fuel_system.py:93 -/
noncomputable def out_fuel_fuel_system_mass (fuel_num_tanks fuel_max_capacity_mass fuel_fuel_system_mass_scaler : ℝ) : ℝ :=
  fuel_sys_weight fuel_num_tanks fuel_max_capacity_mass fuel_fuel_system_mass_scaler

/-- Partial of `fuel_fuel_system_mass` with respect to `fuel_max_capacity_mass` as set by `AltFuelSystemMass`, aviary/subsystems/mass/flops_based/fuel_system.py:100 -/
noncomputable def J_fuel_fuel_system_mass__fuel_max_capacity_mass (fuel_max_capacity_mass fuel_fuel_system_mass_scaler : ℝ) : ℝ :=
  ((((22834 / 15) * ((1 / 208100) ^ ((2 / 3) : ℝ))) * (fuel_max_capacity_mass ^ ((-(1 / 3)) :
    ℝ))) + (29 / 100000)) * fuel_fuel_system_mass_scaler

/-- Partial of `fuel_fuel_system_mass` with respect to `fuel_fuel_system_mass_scaler` as set by `AltFuelSystemMass`, aviary/subsystems/mass/flops_based/fuel_system.py:112 -/
noncomputable def J_fuel_fuel_system_mass__fuel_fuel_system_mass_scaler (fuel_num_tanks fuel_max_capacity_mass : ℝ) : ℝ :=
  ((((4893 / 5) * (fuel_num_tanks / 13)) + ((11417 / 5) * ((fuel_max_capacity_mass / 208100) ^
    ((2 / 3) : ℝ)))) + 350) + ((29 / 100000) * fuel_max_capacity_mass)

theorem d_fuel_fuel_system_mass__fuel_max_capacity_mass (fuel_num_tanks fuel_max_capacity_mass
    fuel_fuel_system_mass_scaler : ℝ) (h0 : 0 < fuel_max_capacity_mass) :
    HasDerivAt (fun t => out_fuel_fuel_system_mass fuel_num_tanks t fuel_fuel_system_mass_scaler) (J_fuel_fuel_system_mass__fuel_max_capacity_mass fuel_max_capacity_mass fuel_fuel_system_mass_scaler) fuel_max_capacity_mass := by
  have e0 : ∀ x : ℝ, 0 < x → x ^ ((-(1 / 3)) : ℝ) = x ^ ((2 / 3) : ℝ) / x ^ 1 := fun x hx => rpow_down hx 1 (by norm_num)
  simp only [out_fuel_fuel_system_mass, J_fuel_fuel_system_mass__fuel_max_capacity_mass, fuel_sys_weight]
  (apply hasDerivAt_of_eq; on_goal 1 => (repeat' comp_step))
  all_goals try comp_side
  all_goals try simp (disch := first | assumption | positivity) only [mul_rpow, div_rpow, e0]
  all_goals try simp only [mul_zero, zero_mul, add_zero, zero_add, sub_zero, zero_sub, mul_one, one_mul]
  all_goals try push_cast
  all_goals comp_eq

theorem d_fuel_fuel_system_mass__fuel_fuel_system_mass_scaler (fuel_num_tanks
    fuel_max_capacity_mass fuel_fuel_system_mass_scaler : ℝ) (h0 : 0 < fuel_max_capacity_mass) :
    HasDerivAt (fun t => out_fuel_fuel_system_mass fuel_num_tanks fuel_max_capacity_mass t) (J_fuel_fuel_system_mass__fuel_fuel_system_mass_scaler fuel_num_tanks fuel_max_capacity_mass) fuel_fuel_system_mass_scaler := by
  simp only [out_fuel_fuel_system_mass, J_fuel_fuel_system_mass__fuel_fuel_system_mass_scaler, fuel_sys_weight]
  (apply hasDerivAt_of_eq; on_goal 1 => (repeat' comp_step))
  all_goals try comp_side
  all_goals try simp only [mul_zero, zero_mul, add_zero, zero_add, sub_zero, zero_sub, mul_one, one_mul]
  all_goals try push_cast
  all_goals comp_eq

/-- Every partial derivative set by `AltFuelSystemMass` is the derivative of its output. -/
theorem partials (fuel_num_tanks fuel_max_capacity_mass fuel_fuel_system_mass_scaler : ℝ) (h0 : 0
    < fuel_max_capacity_mass) :
    HasDerivAt (fun t => out_fuel_fuel_system_mass fuel_num_tanks t fuel_fuel_system_mass_scaler)
      (J_fuel_fuel_system_mass__fuel_max_capacity_mass fuel_max_capacity_mass
      fuel_fuel_system_mass_scaler) fuel_max_capacity_mass ∧
    HasDerivAt (fun t => out_fuel_fuel_system_mass fuel_num_tanks fuel_max_capacity_mass t)
      (J_fuel_fuel_system_mass__fuel_fuel_system_mass_scaler fuel_num_tanks
      fuel_max_capacity_mass) fuel_fuel_system_mass_scaler :=
  ⟨d_fuel_fuel_system_mass__fuel_max_capacity_mass _ _ _ h0,
    d_fuel_fuel_system_mass__fuel_fuel_system_mass_scaler _ _ _ h0⟩

example : ∃ fuel_num_tanks fuel_max_capacity_mass fuel_fuel_system_mass_scaler : ℝ,
      0 < fuel_max_capacity_mass :=
  ⟨0, 1, 0, by comp_example⟩

end Verif.Comp.MassFlopsBasedFuelSystem.AltFuelSystemMass

namespace Verif.Comp.MassFlopsBasedFuelSystem.TransportFuelSystemMass
open Real

/-- Output `fuel_fuel_system_mass` of `TransportFuelSystemMass.compute`, aviary/subsystems/mass/flops_based/fuel_system.py:36 -/
noncomputable def out_fuel_fuel_system_mass (distributed_engine_count_factor_of_propulsion_total_num_engines constraints_max_mach fuel_fuel_system_mass_scaler fuel_max_capacity_mass : ℝ) : ℝ :=
  ((((107 / 100) * (fuel_max_capacity_mass ^ ((29 / 50) : ℝ))) *
    (distributed_engine_count_factor_of_propulsion_total_num_engines ^ ((43 / 100) : ℝ))) *
    (constraints_max_mach ^ ((17 / 50) : ℝ))) * fuel_fuel_system_mass_scaler

/-- Partial of `fuel_fuel_system_mass` with respect to `fuel_fuel_system_mass_scaler` as set by `TransportFuelSystemMass`, aviary/subsystems/mass/flops_based/fuel_system.py:47 -/
noncomputable def J_fuel_fuel_system_mass__fuel_fuel_system_mass_scaler (distributed_engine_count_factor_of_propulsion_total_num_engines constraints_max_mach fuel_max_capacity_mass : ℝ) : ℝ :=
  (((107 / 100) * (fuel_max_capacity_mass ^ ((29 / 50) : ℝ))) *
    (distributed_engine_count_factor_of_propulsion_total_num_engines ^ ((43 / 100) : ℝ))) *
    (constraints_max_mach ^ ((17 / 50) : ℝ))

/-- Partial of `fuel_fuel_system_mass` with respect to `fuel_max_capacity_mass` as set by `TransportFuelSystemMass`, aviary/subsystems/mass/flops_based/fuel_system.py:51 -/
noncomputable def J_fuel_fuel_system_mass__fuel_max_capacity_mass (propulsion_total_num_engines constraints_max_mach fuel_fuel_system_mass_scaler fuel_max_capacity_mass : ℝ) : ℝ :=
  ((((3103 / 5000) * (fuel_max_capacity_mass ^ ((-(21 / 50)) : ℝ))) *
    (propulsion_total_num_engines ^ ((43 / 100) : ℝ))) * (constraints_max_mach ^ ((17 / 50) :
    ℝ))) * fuel_fuel_system_mass_scaler

theorem d_fuel_fuel_system_mass__fuel_fuel_system_mass_scaler
    (distributed_engine_count_factor_of_propulsion_total_num_engines constraints_max_mach
    fuel_fuel_system_mass_scaler fuel_max_capacity_mass : ℝ) (h0 : 0 < fuel_max_capacity_mass) (h1
    : 0 < distributed_engine_count_factor_of_propulsion_total_num_engines) (h2 : 0 <
    constraints_max_mach) :
    HasDerivAt (fun t => out_fuel_fuel_system_mass distributed_engine_count_factor_of_propulsion_total_num_engines constraints_max_mach t fuel_max_capacity_mass) (J_fuel_fuel_system_mass__fuel_fuel_system_mass_scaler distributed_engine_count_factor_of_propulsion_total_num_engines constraints_max_mach fuel_max_capacity_mass) fuel_fuel_system_mass_scaler := by
  simp only [out_fuel_fuel_system_mass, J_fuel_fuel_system_mass__fuel_fuel_system_mass_scaler]
  (apply hasDerivAt_of_eq; on_goal 1 => (repeat' comp_step))
  all_goals try comp_side
  all_goals try simp only [mul_zero, zero_mul, add_zero, zero_add, sub_zero, zero_sub, mul_one, one_mul]
  all_goals try push_cast
  all_goals comp_eq

/-- Partial derivatives of `TransportFuelSystemMass` that are proved correct (the rest is listed in the header). -/
theorem partials_partial (distributed_engine_count_factor_of_propulsion_total_num_engines
    constraints_max_mach fuel_fuel_system_mass_scaler fuel_max_capacity_mass : ℝ) (h0 : 0 <
    fuel_max_capacity_mass) (h1 : 0 <
    distributed_engine_count_factor_of_propulsion_total_num_engines) (h2 : 0 <
    constraints_max_mach) :
    HasDerivAt (fun t => out_fuel_fuel_system_mass
      distributed_engine_count_factor_of_propulsion_total_num_engines constraints_max_mach t
      fuel_max_capacity_mass) (J_fuel_fuel_system_mass__fuel_fuel_system_mass_scaler
      distributed_engine_count_factor_of_propulsion_total_num_engines constraints_max_mach
      fuel_max_capacity_mass) fuel_fuel_system_mass_scaler :=
  d_fuel_fuel_system_mass__fuel_fuel_system_mass_scaler _ _ _ _ h0 h1 h2

example : ∃ distributed_engine_count_factor_of_propulsion_total_num_engines constraints_max_mach
      fuel_fuel_system_mass_scaler fuel_max_capacity_mass : ℝ,
      0 < fuel_max_capacity_mass ∧
      0 < distributed_engine_count_factor_of_propulsion_total_num_engines ∧
      0 < constraints_max_mach :=
  ⟨1, 1, 0, 1, by comp_example, by comp_example, by comp_example⟩

end Verif.Comp.MassFlopsBasedFuelSystem.TransportFuelSystemMass

