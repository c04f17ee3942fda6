import Verif.Lemmas.CompDeriv

/-! # Partial derivatives of the components of `aviary/subsystems/mass/flops_based/engine_oil.py`

One node of a vector component is modelled over the real numbers.  Each option that selects a
branch is fixed, one namespace per choice.  `out_x` is the output `x`, `J_x__y` the entry that
`compute_partials` (or `declare_partials` with `val`) assigns, `d_x__y` the proof that the entry is
the derivative.  Inputs an output does not take as argument have no influence on it. -/

set_option linter.all false

namespace Verif.Comp.MassFlopsBasedEngineOil.AltEngineOilMass
open Real

/-- Output `propulsion_total_engine_oil_mass` of `AltEngineOilMass.compute`, aviary/subsystems/mass/flops_based/engine_oil.py:87 -/
noncomputable def out_propulsion_total_engine_oil_mass (floor_pax_39_40 propulsion_engine_oil_mass_scaler : ℝ) : ℝ :=
  (240 * floor_pax_39_40) * propulsion_engine_oil_mass_scaler

/-- Partial of `propulsion_total_engine_oil_mass` with respect to `propulsion_engine_oil_mass_scaler` as set by `AltEngineOilMass`, aviary/subsystems/mass/flops_based/engine_oil.py:94 -/
noncomputable def J_propulsion_total_engine_oil_mass__propulsion_engine_oil_mass_scaler (floor_pax_39_40 : ℝ) : ℝ :=
  240 * floor_pax_39_40

theorem d_propulsion_total_engine_oil_mass__propulsion_engine_oil_mass_scaler (floor_pax_39_40
    propulsion_engine_oil_mass_scaler : ℝ)  :
    HasDerivAt (fun t => out_propulsion_total_engine_oil_mass floor_pax_39_40 t) (J_propulsion_total_engine_oil_mass__propulsion_engine_oil_mass_scaler floor_pax_39_40) propulsion_engine_oil_mass_scaler := by
  simp only [out_propulsion_total_engine_oil_mass, J_propulsion_total_engine_oil_mass__propulsion_engine_oil_mass_scaler]
  (apply hasDerivAt_of_eq; on_goal 1 => (repeat' comp_step))
  all_goals try comp_side
  all_goals try simp only [mul_zero, zero_mul, add_zero, zero_add, sub_zero, zero_sub, mul_one, one_mul]
  all_goals try push_cast
  all_goals comp_eq

/-- Every partial derivative set by `AltEngineOilMass` is the derivative of its output. -/
theorem partials (floor_pax_39_40 propulsion_engine_oil_mass_scaler : ℝ) :
    HasDerivAt (fun t => out_propulsion_total_engine_oil_mass floor_pax_39_40 t)
      (J_propulsion_total_engine_oil_mass__propulsion_engine_oil_mass_scaler floor_pax_39_40)
      propulsion_engine_oil_mass_scaler :=
  d_propulsion_total_engine_oil_mass__propulsion_engine_oil_mass_scaler _ _

end Verif.Comp.MassFlopsBasedEngineOil.AltEngineOilMass

namespace Verif.Comp.MassFlopsBasedEngineOil.TransportEngineOilMass
open Real

/-- aviary/subsystems/mass/flops_based/engine_oil.py:42 -/
noncomputable def thrust_factor (distributed_engine_count_factor_of_propulsion_total_num_engines propulsion_total_scaled_sls_thrust : ℝ) : ℝ :=
  propulsion_total_scaled_sls_thrust /
    distributed_engine_count_factor_of_propulsion_total_num_engines

/-- Output `propulsion_total_engine_oil_mass` of `TransportEngineOilMass.compute`, aviary/subsystems/mass/flops_based/engine_oil.py:44 -/
noncomputable def out_propulsion_total_engine_oil_mass (distributed_engine_count_factor_of_propulsion_total_num_engines propulsion_engine_oil_mass_scaler propulsion_total_scaled_sls_thrust : ℝ) : ℝ :=
  (((41 / 500) * distributed_engine_count_factor_of_propulsion_total_num_engines) *
    ((thrust_factor distributed_engine_count_factor_of_propulsion_total_num_engines
    propulsion_total_scaled_sls_thrust) ^ ((13 / 20) : ℝ))) * propulsion_engine_oil_mass_scaler

/-- Partial of `propulsion_total_engine_oil_mass` with respect to `propulsion_engine_oil_mass_scaler` as set by `TransportEngineOilMass`, aviary/subsystems/mass/flops_based/engine_oil.py:55 -/
noncomputable def J_propulsion_total_engine_oil_mass__propulsion_engine_oil_mass_scaler (distributed_engine_count_factor_of_propulsion_total_num_engines propulsion_total_scaled_sls_thrust : ℝ) : ℝ :=
  ((41 / 500) * distributed_engine_count_factor_of_propulsion_total_num_engines) *
    ((thrust_factor distributed_engine_count_factor_of_propulsion_total_num_engines
    propulsion_total_scaled_sls_thrust) ^ ((13 / 20) : ℝ))

/-- Partial of `propulsion_total_engine_oil_mass` with respect to `propulsion_total_scaled_sls_thrust` as set by `TransportEngineOilMass`, aviary/subsystems/mass/flops_based/engine_oil.py:59 -/
noncomputable def J_propulsion_total_engine_oil_mass__propulsion_total_scaled_sls_thrust (distributed_engine_count_factor_of_propulsion_total_num_engines propulsion_engine_oil_mass_scaler propulsion_total_scaled_sls_thrust : ℝ) : ℝ :=
  ((533 / 10000) * ((thrust_factor
    distributed_engine_count_factor_of_propulsion_total_num_engines
    propulsion_total_scaled_sls_thrust) ^ ((-(7 / 20)) : ℝ))) *
    propulsion_engine_oil_mass_scaler

theorem d_propulsion_total_engine_oil_mass__propulsion_engine_oil_mass_scaler
    (distributed_engine_count_factor_of_propulsion_total_num_engines
    propulsion_engine_oil_mass_scaler propulsion_total_scaled_sls_thrust : ℝ) (h0 : 0 <
    distributed_engine_count_factor_of_propulsion_total_num_engines) (h1 : 0 <
    propulsion_total_scaled_sls_thrust) :
    HasDerivAt (fun t => out_propulsion_total_engine_oil_mass distributed_engine_count_factor_of_propulsion_total_num_engines t propulsion_total_scaled_sls_thrust) (J_propulsion_total_engine_oil_mass__propulsion_engine_oil_mass_scaler distributed_engine_count_factor_of_propulsion_total_num_engines propulsion_total_scaled_sls_thrust) propulsion_engine_oil_mass_scaler := by
  simp only [out_propulsion_total_engine_oil_mass, J_propulsion_total_engine_oil_mass__propulsion_engine_oil_mass_scaler, thrust_factor]
  (apply hasDerivAt_of_eq; on_goal 1 => (repeat' comp_step))
  all_goals try comp_side
  all_goals try simp only [mul_zero, zero_mul, add_zero, zero_add, sub_zero, zero_sub, mul_one, one_mul]
  all_goals try push_cast
  all_goals comp_eq

theorem d_propulsion_total_engine_oil_mass__propulsion_total_scaled_sls_thrust
    (distributed_engine_count_factor_of_propulsion_total_num_engines
    propulsion_engine_oil_mass_scaler propulsion_total_scaled_sls_thrust : ℝ) (h0 : 0 <
    distributed_engine_count_factor_of_propulsion_total_num_engines) (h1 : 0 <
    propulsion_total_scaled_sls_thrust) :
    HasDerivAt (fun t => out_propulsion_total_engine_oil_mass distributed_engine_count_factor_of_propulsion_total_num_engines propulsion_engine_oil_mass_scaler t) (J_propulsion_total_engine_oil_mass__propulsion_total_scaled_sls_thrust distributed_engine_count_factor_of_propulsion_total_num_engines propulsion_engine_oil_mass_scaler propulsion_total_scaled_sls_thrust) propulsion_total_scaled_sls_thrust := by
  have e0 : ∀ x : ℝ, 0 < x → x ^ ((-(7 / 20)) : ℝ) = x ^ ((13 / 20) : ℝ) / x ^ 1 := fun x hx => rpow_down hx 1 (by norm_num)
  simp only [out_propulsion_total_engine_oil_mass, J_propulsion_total_engine_oil_mass__propulsion_total_scaled_sls_thrust, thrust_factor]
  (apply hasDerivAt_of_eq; on_goal 1 => (repeat' comp_step))
  all_goals try comp_side
  all_goals try simp (disch := first | assumption | positivity) only [e0]
  all_goals try simp only [mul_zero, zero_mul, add_zero, zero_add, sub_zero, zero_sub, mul_one, one_mul]
  all_goals try push_cast
  all_goals comp_eq

/-- Every partial derivative set by `TransportEngineOilMass` is the derivative of its output. -/
theorem partials (distributed_engine_count_factor_of_propulsion_total_num_engines
    propulsion_engine_oil_mass_scaler propulsion_total_scaled_sls_thrust : ℝ) (h0 : 0 <
    distributed_engine_count_factor_of_propulsion_total_num_engines) (h1 : 0 <
    propulsion_total_scaled_sls_thrust) :
    HasDerivAt (fun t => out_propulsion_total_engine_oil_mass
      distributed_engine_count_factor_of_propulsion_total_num_engines t
      propulsion_total_scaled_sls_thrust)
      (J_propulsion_total_engine_oil_mass__propulsion_engine_oil_mass_scaler
      distributed_engine_count_factor_of_propulsion_total_num_engines
      propulsion_total_scaled_sls_thrust) propulsion_engine_oil_mass_scaler ∧
    HasDerivAt (fun t => out_propulsion_total_engine_oil_mass
      distributed_engine_count_factor_of_propulsion_total_num_engines
      propulsion_engine_oil_mass_scaler t)
      (J_propulsion_total_engine_oil_mass__propulsion_total_scaled_sls_thrust
      distributed_engine_count_factor_of_propulsion_total_num_engines
      propulsion_engine_oil_mass_scaler propulsion_total_scaled_sls_thrust)
      propulsion_total_scaled_sls_thrust :=
  ⟨d_propulsion_total_engine_oil_mass__propulsion_engine_oil_mass_scaler _ _ _ h0 h1,
    d_propulsion_total_engine_oil_mass__propulsion_total_scaled_sls_thrust _ _ _ h0 h1⟩

example : ∃ distributed_engine_count_factor_of_propulsion_total_num_engines
      propulsion_engine_oil_mass_scaler propulsion_total_scaled_sls_thrust : ℝ,
      0 < distributed_engine_count_factor_of_propulsion_total_num_engines ∧
      0 < propulsion_total_scaled_sls_thrust :=
  ⟨1, 0, 1, by comp_example, by comp_example⟩

end Verif.Comp.MassFlopsBasedEngineOil.TransportEngineOilMass

