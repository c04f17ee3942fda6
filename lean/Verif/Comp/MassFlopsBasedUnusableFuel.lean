import Verif.Lemmas.CompDeriv

/-! # Partial derivatives of the components of `aviary/subsystems/mass/flops_based/unusable_fuel.py`

One node of a vector component is modelled over the real numbers.  Each option that selects a
branch is fixed, one namespace per choice.  `out_x` is the output `x`, `J_x__y` the entry that
`compute_partials` (or `declare_partials` with `val`) assigns, `d_x__y` the proof that the entry is
the derivative.  Inputs an output does not take as argument have no influence on it. -/

set_option linter.all false

namespace Verif.Comp.MassFlopsBasedUnusableFuel.AltUnusableFuelMass
open Real

/-- Output `fuel_unusable_fuel_mass` of `AltUnusableFuelMass.compute`, aviary/subsystems/mass/flops_based/unusable_fuel.py:151 -/
noncomputable def out_fuel_unusable_fuel_mass (fuel_max_capacity_mass fuel_unusable_fuel_mass_scaler : ℝ) : ℝ :=
  ((21 / 2500) * fuel_max_capacity_mass) * fuel_unusable_fuel_mass_scaler

/-- Partial of `fuel_unusable_fuel_mass` with respect to `fuel_unusable_fuel_mass_scaler` as set by `AltUnusableFuelMass`, aviary/subsystems/mass/flops_based/unusable_fuel.py:157 -/
noncomputable def J_fuel_unusable_fuel_mass__fuel_unusable_fuel_mass_scaler (fuel_max_capacity_mass : ℝ) : ℝ :=
  (21 / 2500) * fuel_max_capacity_mass

/-- Partial of `fuel_unusable_fuel_mass` with respect to `fuel_max_capacity_mass` as set by `AltUnusableFuelMass`, aviary/subsystems/mass/flops_based/unusable_fuel.py:161 -/
noncomputable def J_fuel_unusable_fuel_mass__fuel_max_capacity_mass (fuel_unusable_fuel_mass_scaler : ℝ) : ℝ :=
  (21 / 2500) * fuel_unusable_fuel_mass_scaler

theorem d_fuel_unusable_fuel_mass__fuel_max_capacity_mass (fuel_max_capacity_mass
    fuel_unusable_fuel_mass_scaler : ℝ)  :
    HasDerivAt (fun t => out_fuel_unusable_fuel_mass t fuel_unusable_fuel_mass_scaler) (J_fuel_unusable_fuel_mass__fuel_max_capacity_mass fuel_unusable_fuel_mass_scaler) fuel_max_capacity_mass := by
  simp only [out_fuel_unusable_fuel_mass, J_fuel_unusable_fuel_mass__fuel_max_capacity_mass]
  (apply hasDerivAt_of_eq; on_goal 1 => (repeat' comp_step))
  all_goals try comp_side
  all_goals try simp only [mul_zero, zero_mul, add_zero, zero_add, sub_zero, zero_sub, mul_one, one_mul]
  all_goals try push_cast
  all_goals comp_eq

theorem d_fuel_unusable_fuel_mass__fuel_unusable_fuel_mass_scaler (fuel_max_capacity_mass
    fuel_unusable_fuel_mass_scaler : ℝ)  :
    HasDerivAt (fun t => out_fuel_unusable_fuel_mass fuel_max_capacity_mass t) (J_fuel_unusable_fuel_mass__fuel_unusable_fuel_mass_scaler fuel_max_capacity_mass) fuel_unusable_fuel_mass_scaler := by
  simp only [out_fuel_unusable_fuel_mass, J_fuel_unusable_fuel_mass__fuel_unusable_fuel_mass_scaler]
  (apply hasDerivAt_of_eq; on_goal 1 => (repeat' comp_step))
  all_goals try comp_side
  all_goals try simp only [mul_zero, zero_mul, add_zero, zero_add, sub_zero, zero_sub, mul_one, one_mul]
  all_goals try push_cast
  all_goals comp_eq

/-- Every partial derivative set by `AltUnusableFuelMass` is the derivative of its output. -/
theorem partials (fuel_max_capacity_mass fuel_unusable_fuel_mass_scaler : ℝ) :
    HasDerivAt (fun t => out_fuel_unusable_fuel_mass t fuel_unusable_fuel_mass_scaler)
      (J_fuel_unusable_fuel_mass__fuel_max_capacity_mass fuel_unusable_fuel_mass_scaler)
      fuel_max_capacity_mass ∧
    HasDerivAt (fun t => out_fuel_unusable_fuel_mass fuel_max_capacity_mass t)
      (J_fuel_unusable_fuel_mass__fuel_unusable_fuel_mass_scaler fuel_max_capacity_mass)
      fuel_unusable_fuel_mass_scaler :=
  ⟨d_fuel_unusable_fuel_mass__fuel_max_capacity_mass _ _,
    d_fuel_unusable_fuel_mass__fuel_unusable_fuel_mass_scaler _ _⟩

end Verif.Comp.MassFlopsBasedUnusableFuel.AltUnusableFuelMass

namespace Verif.Comp.MassFlopsBasedUnusableFuel.TransportUnusableFuelMass
open Real

/-- aviary/subsystems/mass/flops_based/unusable_fuel.py:61 -/
noncomputable def density_ratio (fuel_density : ℝ) : ℝ := fuel_density / (67 / 10)

/-- aviary/subsystems/mass/flops_based/unusable_fuel.py:66 -/
noncomputable def thrust_factor (distributed_engine_count_factor_of_propulsion_total_num_engines propulsion_total_scaled_sls_thrust : ℝ) : ℝ :=
  propulsion_total_scaled_sls_thrust /
    distributed_engine_count_factor_of_propulsion_total_num_engines

/-- aviary/subsystems/mass/flops_based/unusable_fuel.py:96 -/
noncomputable def term1 (distributed_engine_count_factor_of_propulsion_total_num_engines propulsion_total_scaled_sls_thrust : ℝ) : ℝ :=
  (thrust_factor distributed_engine_count_factor_of_propulsion_total_num_engines
    propulsion_total_scaled_sls_thrust) ^ ((1 / 5) : ℝ)

/-- aviary/subsystems/mass/flops_based/unusable_fuel.py:97 -/
noncomputable def term2 (fuel_max_capacity_mass : ℝ) : ℝ := fuel_max_capacity_mass ^ ((7 / 25) : ℝ)

/-- Output `fuel_unusable_fuel_mass` of `TransportUnusableFuelMass.compute`, aviary/subsystems/mass/flops_based/unusable_fuel.py:72 -/
noncomputable def out_fuel_unusable_fuel_mass (fuel_num_tanks distributed_engine_count_factor_of_propulsion_total_num_engines fuel_unusable_fuel_mass_scaler fuel_density fuel_max_capacity_mass propulsion_total_scaled_sls_thrust wing_area : ℝ) : ℝ :=
  ((((((23 / 2) * distributed_engine_count_factor_of_propulsion_total_num_engines) *
    ((thrust_factor distributed_engine_count_factor_of_propulsion_total_num_engines
    propulsion_total_scaled_sls_thrust) ^ ((1 / 5) : ℝ))) + ((7 / 100) * wing_area)) + (((8 / 5)
    * fuel_num_tanks) * (fuel_max_capacity_mass ^ ((7 / 25) : ℝ)))) * (density_ratio
    fuel_density)) * fuel_unusable_fuel_mass_scaler

/-- Partial of `fuel_unusable_fuel_mass` with respect to `fuel_unusable_fuel_mass_scaler` as set by `TransportUnusableFuelMass`, aviary/subsystems/mass/flops_based/unusable_fuel.py:105 -/
noncomputable def J_fuel_unusable_fuel_mass__fuel_unusable_fuel_mass_scaler (fuel_num_tanks distributed_engine_count_factor_of_propulsion_total_num_engines fuel_density fuel_max_capacity_mass propulsion_total_scaled_sls_thrust wing_area : ℝ) : ℝ :=
  (((((23 / 2) * distributed_engine_count_factor_of_propulsion_total_num_engines) * (term1
    distributed_engine_count_factor_of_propulsion_total_num_engines
    propulsion_total_scaled_sls_thrust)) + ((7 / 100) * wing_area)) + (((8 / 5) *
    fuel_num_tanks) * (term2 fuel_max_capacity_mass))) * (density_ratio fuel_density)

/-- Partial of `fuel_unusable_fuel_mass` with respect to `propulsion_total_scaled_sls_thrust` as set by `TransportUnusableFuelMass`, aviary/subsystems/mass/flops_based/unusable_fuel.py:111 -/
noncomputable def J_fuel_unusable_fuel_mass__propulsion_total_scaled_sls_thrust (distributed_engine_count_factor_of_propulsion_total_num_engines fuel_unusable_fuel_mass_scaler fuel_density propulsion_total_scaled_sls_thrust : ℝ) : ℝ :=
  (((23 / 10) * ((thrust_factor distributed_engine_count_factor_of_propulsion_total_num_engines
    propulsion_total_scaled_sls_thrust) ^ ((-(4 / 5)) : ℝ))) * (density_ratio fuel_density)) *
    fuel_unusable_fuel_mass_scaler

/-- Partial of `fuel_unusable_fuel_mass` with respect to `wing_area` as set by `TransportUnusableFuelMass`, aviary/subsystems/mass/flops_based/unusable_fuel.py:115 -/
noncomputable def J_fuel_unusable_fuel_mass__wing_area (fuel_unusable_fuel_mass_scaler fuel_density : ℝ) : ℝ :=
  ((7 / 100) * (density_ratio fuel_density)) * fuel_unusable_fuel_mass_scaler

/-- Partial of `fuel_unusable_fuel_mass` with respect to `fuel_max_capacity_mass` as set by `TransportUnusableFuelMass`, aviary/subsystems/mass/flops_based/unusable_fuel.py:119 -/
noncomputable def J_fuel_unusable_fuel_mass__fuel_max_capacity_mass (fuel_num_tanks fuel_unusable_fuel_mass_scaler fuel_density fuel_max_capacity_mass : ℝ) : ℝ :=
  ((((56 / 125) * fuel_num_tanks) * (fuel_max_capacity_mass ^ ((-(18 / 25)) : ℝ))) *
    (density_ratio fuel_density)) * fuel_unusable_fuel_mass_scaler

/-- Partial of `fuel_unusable_fuel_mass` with respect to `fuel_density` as set by `TransportUnusableFuelMass`, aviary/subsystems/mass/flops_based/unusable_fuel.py:123 -/
noncomputable def J_fuel_unusable_fuel_mass__fuel_density (fuel_num_tanks distributed_engine_count_factor_of_propulsion_total_num_engines fuel_unusable_fuel_mass_scaler fuel_max_capacity_mass propulsion_total_scaled_sls_thrust wing_area : ℝ) : ℝ :=
  ((((((23 / 2) * distributed_engine_count_factor_of_propulsion_total_num_engines) * (term1
    distributed_engine_count_factor_of_propulsion_total_num_engines
    propulsion_total_scaled_sls_thrust)) + ((7 / 100) * wing_area)) + (((8 / 5) *
    fuel_num_tanks) * (term2 fuel_max_capacity_mass))) / (67 / 10)) *
    fuel_unusable_fuel_mass_scaler

theorem d_fuel_unusable_fuel_mass__fuel_unusable_fuel_mass_scaler (fuel_num_tanks
    distributed_engine_count_factor_of_propulsion_total_num_engines fuel_unusable_fuel_mass_scaler
    fuel_density fuel_max_capacity_mass propulsion_total_scaled_sls_thrust wing_area : ℝ) (h0 : 0
    < distributed_engine_count_factor_of_propulsion_total_num_engines) (h1 : 0 <
    propulsion_total_scaled_sls_thrust) (h2 : 0 < fuel_max_capacity_mass) :
    HasDerivAt (fun t => out_fuel_unusable_fuel_mass fuel_num_tanks distributed_engine_count_factor_of_propulsion_total_num_engines t fuel_density fuel_max_capacity_mass propulsion_total_scaled_sls_thrust wing_area) (J_fuel_unusable_fuel_mass__fuel_unusable_fuel_mass_scaler fuel_num_tanks distributed_engine_count_factor_of_propulsion_total_num_engines fuel_density fuel_max_capacity_mass propulsion_total_scaled_sls_thrust wing_area) fuel_unusable_fuel_mass_scaler := by
  simp only [out_fuel_unusable_fuel_mass, J_fuel_unusable_fuel_mass__fuel_unusable_fuel_mass_scaler, term2, term1, density_ratio, thrust_factor]
  (apply hasDerivAt_of_eq; on_goal 1 => (repeat' comp_step))
  all_goals try comp_side
  all_goals try simp only [mul_zero, zero_mul, add_zero, zero_add, sub_zero, zero_sub, mul_one, one_mul]
  all_goals try push_cast
  all_goals comp_eq

theorem d_fuel_unusable_fuel_mass__fuel_density (fuel_num_tanks
    distributed_engine_count_factor_of_propulsion_total_num_engines fuel_unusable_fuel_mass_scaler
    fuel_density fuel_max_capacity_mass propulsion_total_scaled_sls_thrust wing_area : ℝ) (h0 : 0
    < distributed_engine_count_factor_of_propulsion_total_num_engines) (h1 : 0 <
    propulsion_total_scaled_sls_thrust) (h2 : 0 < fuel_max_capacity_mass) :
    HasDerivAt (fun t => out_fuel_unusable_fuel_mass fuel_num_tanks distributed_engine_count_factor_of_propulsion_total_num_engines fuel_unusable_fuel_mass_scaler t fuel_max_capacity_mass propulsion_total_scaled_sls_thrust wing_area) (J_fuel_unusable_fuel_mass__fuel_density fuel_num_tanks distributed_engine_count_factor_of_propulsion_total_num_engines fuel_unusable_fuel_mass_scaler fuel_max_capacity_mass propulsion_total_scaled_sls_thrust wing_area) fuel_density := by
  simp only [out_fuel_unusable_fuel_mass, J_fuel_unusable_fuel_mass__fuel_density, term2, term1, density_ratio, thrust_factor]
  (apply hasDerivAt_of_eq; on_goal 1 => (repeat' comp_step))
  all_goals try comp_side
  all_goals try simp only [mul_zero, zero_mul, add_zero, zero_add, sub_zero, zero_sub, mul_one, one_mul]
  all_goals try push_cast
  all_goals comp_eq

theorem d_fuel_unusable_fuel_mass__fuel_max_capacity_mass (fuel_num_tanks
    distributed_engine_count_factor_of_propulsion_total_num_engines fuel_unusable_fuel_mass_scaler
    fuel_density fuel_max_capacity_mass propulsion_total_scaled_sls_thrust wing_area : ℝ) (h0 : 0
    < distributed_engine_count_factor_of_propulsion_total_num_engines) (h1 : 0 <
    propulsion_total_scaled_sls_thrust) (h2 : 0 < fuel_max_capacity_mass) :
    HasDerivAt (fun t => out_fuel_unusable_fuel_mass fuel_num_tanks distributed_engine_count_factor_of_propulsion_total_num_engines fuel_unusable_fuel_mass_scaler fuel_density t propulsion_total_scaled_sls_thrust wing_area) (J_fuel_unusable_fuel_mass__fuel_max_capacity_mass fuel_num_tanks fuel_unusable_fuel_mass_scaler fuel_density fuel_max_capacity_mass) fuel_max_capacity_mass := by
  have e0 : ∀ x : ℝ, 0 < x → x ^ ((-(18 / 25)) : ℝ) = x ^ ((7 / 25) : ℝ) / x ^ 1 := fun x hx => rpow_down hx 1 (by norm_num)
  simp only [out_fuel_unusable_fuel_mass, J_fuel_unusable_fuel_mass__fuel_max_capacity_mass, density_ratio, thrust_factor]
  (apply hasDerivAt_of_eq; on_goal 1 => (repeat' comp_step))
  all_goals try comp_side
  all_goals try simp (disch := first | assumption | positivity) only [e0]
  all_goals try simp only [mul_zero, zero_mul, add_zero, zero_add, sub_zero, zero_sub, mul_one, one_mul]
  all_goals try push_cast
  all_goals comp_eq

theorem d_fuel_unusable_fuel_mass__propulsion_total_scaled_sls_thrust (fuel_num_tanks
    distributed_engine_count_factor_of_propulsion_total_num_engines fuel_unusable_fuel_mass_scaler
    fuel_density fuel_max_capacity_mass propulsion_total_scaled_sls_thrust wing_area : ℝ) (h0 : 0
    < distributed_engine_count_factor_of_propulsion_total_num_engines) (h1 : 0 <
    propulsion_total_scaled_sls_thrust) (h2 : 0 < fuel_max_capacity_mass) :
    HasDerivAt (fun t => out_fuel_unusable_fuel_mass fuel_num_tanks distributed_engine_count_factor_of_propulsion_total_num_engines fuel_unusable_fuel_mass_scaler fuel_density fuel_max_capacity_mass t wing_area) (J_fuel_unusable_fuel_mass__propulsion_total_scaled_sls_thrust distributed_engine_count_factor_of_propulsion_total_num_engines fuel_unusable_fuel_mass_scaler fuel_density propulsion_total_scaled_sls_thrust) propulsion_total_scaled_sls_thrust := by
  have e0 : ∀ x : ℝ, 0 < x → x ^ ((-(4 / 5)) : ℝ) = x ^ ((1 / 5) : ℝ) / x ^ 1 := fun x hx => rpow_down hx 1 (by norm_num)
  simp only [out_fuel_unusable_fuel_mass, J_fuel_unusable_fuel_mass__propulsion_total_scaled_sls_thrust, density_ratio, thrust_factor]
  (apply hasDerivAt_of_eq; on_goal 1 => (repeat' comp_step))
  all_goals try comp_side
  all_goals try simp (disch := first | assumption | positivity) only [e0]
  all_goals try simp only [mul_zero, zero_mul, add_zero, zero_add, sub_zero, zero_sub, mul_one, one_mul]
  all_goals try push_cast
  all_goals comp_eq

theorem d_fuel_unusable_fuel_mass__wing_area (fuel_num_tanks
    distributed_engine_count_factor_of_propulsion_total_num_engines fuel_unusable_fuel_mass_scaler
    fuel_density fuel_max_capacity_mass propulsion_total_scaled_sls_thrust wing_area : ℝ) (h0 : 0
    < distributed_engine_count_factor_of_propulsion_total_num_engines) (h1 : 0 <
    propulsion_total_scaled_sls_thrust) (h2 : 0 < fuel_max_capacity_mass) :
    HasDerivAt (fun t => out_fuel_unusable_fuel_mass fuel_num_tanks distributed_engine_count_factor_of_propulsion_total_num_engines fuel_unusable_fuel_mass_scaler fuel_density fuel_max_capacity_mass propulsion_total_scaled_sls_thrust t) (J_fuel_unusable_fuel_mass__wing_area fuel_unusable_fuel_mass_scaler fuel_density) wing_area := by
  simp only [out_fuel_unusable_fuel_mass, J_fuel_unusable_fuel_mass__wing_area, density_ratio, thrust_factor]
  (apply hasDerivAt_of_eq; on_goal 1 => (repeat' comp_step))
  all_goals try comp_side
  all_goals try simp only [mul_zero, zero_mul, add_zero, zero_add, sub_zero, zero_sub, mul_one, one_mul]
  all_goals try push_cast
  all_goals comp_eq

/-- Every partial derivative set by `TransportUnusableFuelMass` is the derivative of its output. -/
theorem partials (fuel_num_tanks distributed_engine_count_factor_of_propulsion_total_num_engines
    fuel_unusable_fuel_mass_scaler fuel_density fuel_max_capacity_mass
    propulsion_total_scaled_sls_thrust wing_area : ℝ) (h0 : 0 <
    distributed_engine_count_factor_of_propulsion_total_num_engines) (h1 : 0 <
    propulsion_total_scaled_sls_thrust) (h2 : 0 < fuel_max_capacity_mass) :
    HasDerivAt (fun t => out_fuel_unusable_fuel_mass fuel_num_tanks
      distributed_engine_count_factor_of_propulsion_total_num_engines t fuel_density
      fuel_max_capacity_mass propulsion_total_scaled_sls_thrust wing_area)
      (J_fuel_unusable_fuel_mass__fuel_unusable_fuel_mass_scaler fuel_num_tanks
      distributed_engine_count_factor_of_propulsion_total_num_engines fuel_density
      fuel_max_capacity_mass propulsion_total_scaled_sls_thrust wing_area)
      fuel_unusable_fuel_mass_scaler ∧
    HasDerivAt (fun t => out_fuel_unusable_fuel_mass fuel_num_tanks
      distributed_engine_count_factor_of_propulsion_total_num_engines
      fuel_unusable_fuel_mass_scaler t fuel_max_capacity_mass propulsion_total_scaled_sls_thrust
      wing_area) (J_fuel_unusable_fuel_mass__fuel_density fuel_num_tanks
      distributed_engine_count_factor_of_propulsion_total_num_engines
      fuel_unusable_fuel_mass_scaler fuel_max_capacity_mass propulsion_total_scaled_sls_thrust
      wing_area) fuel_density ∧
    HasDerivAt (fun t => out_fuel_unusable_fuel_mass fuel_num_tanks
      distributed_engine_count_factor_of_propulsion_total_num_engines
      fuel_unusable_fuel_mass_scaler fuel_density t propulsion_total_scaled_sls_thrust wing_area)
      (J_fuel_unusable_fuel_mass__fuel_max_capacity_mass fuel_num_tanks
      fuel_unusable_fuel_mass_scaler fuel_density fuel_max_capacity_mass) fuel_max_capacity_mass ∧
    HasDerivAt (fun t => out_fuel_unusable_fuel_mass fuel_num_tanks
      distributed_engine_count_factor_of_propulsion_total_num_engines
      fuel_unusable_fuel_mass_scaler fuel_density fuel_max_capacity_mass t wing_area)
      (J_fuel_unusable_fuel_mass__propulsion_total_scaled_sls_thrust
      distributed_engine_count_factor_of_propulsion_total_num_engines
      fuel_unusable_fuel_mass_scaler fuel_density propulsion_total_scaled_sls_thrust)
      propulsion_total_scaled_sls_thrust ∧
    HasDerivAt (fun t => out_fuel_unusable_fuel_mass fuel_num_tanks
      distributed_engine_count_factor_of_propulsion_total_num_engines
      fuel_unusable_fuel_mass_scaler fuel_density fuel_max_capacity_mass
      propulsion_total_scaled_sls_thrust t) (J_fuel_unusable_fuel_mass__wing_area
      fuel_unusable_fuel_mass_scaler fuel_density) wing_area :=
  ⟨d_fuel_unusable_fuel_mass__fuel_unusable_fuel_mass_scaler _ _ _ _ _ _ _ h0 h1 h2,
    d_fuel_unusable_fuel_mass__fuel_density _ _ _ _ _ _ _ h0 h1 h2,
    d_fuel_unusable_fuel_mass__fuel_max_capacity_mass _ _ _ _ _ _ _ h0 h1 h2,
    d_fuel_unusable_fuel_mass__propulsion_total_scaled_sls_thrust _ _ _ _ _ _ _ h0 h1 h2,
    d_fuel_unusable_fuel_mass__wing_area _ _ _ _ _ _ _ h0 h1 h2⟩

example : ∃ fuel_num_tanks distributed_engine_count_factor_of_propulsion_total_num_engines
      fuel_unusable_fuel_mass_scaler fuel_density fuel_max_capacity_mass
      propulsion_total_scaled_sls_thrust wing_area : ℝ,
      0 < distributed_engine_count_factor_of_propulsion_total_num_engines ∧
      0 < propulsion_total_scaled_sls_thrust ∧
      0 < fuel_max_capacity_mass :=
  ⟨0, 1, 0, 0, 1, 1, 0, by comp_example, by comp_example, by comp_example⟩

end Verif.Comp.MassFlopsBasedUnusableFuel.TransportUnusableFuelMass

