import Verif.Lemmas.CompDeriv

/-! # Partial derivatives of the components of `aviary/subsystems/mass/flops_based/engine_controls.py`

One node of a vector component is modelled over the real numbers.  Each option that selects a
branch is fixed, one namespace per choice.  `out_x` is the output `x`, `J_x__y` the entry that
`compute_partials` (or `declare_partials` with `val`) assigns, `d_x__y` the proof that the entry is
the derivative.  Inputs an output does not take as argument have no influence on it. -/

set_option linter.all false

namespace Verif.Comp.MassFlopsBasedEngineControls.TransportEngineCtrlsMass
open Real

/-- aviary/subsystems/mass/flops_based/engine_controls.py:47 -/
noncomputable def thrust_factor (distributed_engine_count_factor_of_propulsion_total_num_engines propulsion_total_scaled_sls_thrust : ℝ) : ℝ :=
  propulsion_total_scaled_sls_thrust /
    distributed_engine_count_factor_of_propulsion_total_num_engines

/-- aviary/subsystems/mass/flops_based/engine_controls.py:49 -/
noncomputable def total_controls_weight (distributed_engine_count_factor_of_propulsion_total_num_engines propulsion_total_scaled_sls_thrust : ℝ) : ℝ :=
  ((13 / 50) * distributed_engine_count_factor_of_propulsion_total_num_engines) *
    ((thrust_factor distributed_engine_count_factor_of_propulsion_total_num_engines
    propulsion_total_scaled_sls_thrust) ^ ((1 / 2) : ℝ))

/-- aviary/subsystems/mass/flops_based/engine_controls.py:60 -/
noncomputable def distributed_thrust_factor_exp (distributed_engine_count_factor_of_propulsion_total_num_engines propulsion_total_scaled_sls_thrust : ℝ) : ℝ :=
  (thrust_factor distributed_engine_count_factor_of_propulsion_total_num_engines
    propulsion_total_scaled_sls_thrust) ^ ((1 / 2) : ℝ)

/-- Output `propulsion_total_engine_controls_mass` of `TransportEngineCtrlsMass.compute`, aviary/subsystems/mass/flops_based/engine_controls.py:51 -/
noncomputable def out_propulsion_total_engine_controls_mass (distributed_engine_count_factor_of_propulsion_total_num_engines propulsion_total_scaled_sls_thrust : ℝ) : ℝ :=
  total_controls_weight distributed_engine_count_factor_of_propulsion_total_num_engines
    propulsion_total_scaled_sls_thrust

/-- Partial of `propulsion_total_engine_controls_mass` with respect to `propulsion_total_scaled_sls_thrust` as set by `TransportEngineCtrlsMass`, aviary/subsystems/mass/flops_based/engine_controls.py:62 -/
noncomputable def J_propulsion_total_engine_controls_mass__propulsion_total_scaled_sls_thrust (distributed_engine_count_factor_of_propulsion_total_num_engines propulsion_total_scaled_sls_thrust : ℝ) : ℝ :=
  (13 / 100) / (distributed_thrust_factor_exp
    distributed_engine_count_factor_of_propulsion_total_num_engines
    propulsion_total_scaled_sls_thrust)

theorem d_propulsion_total_engine_controls_mass__propulsion_total_scaled_sls_thrust
    (distributed_engine_count_factor_of_propulsion_total_num_engines
    propulsion_total_scaled_sls_thrust : ℝ) (h0 : 0 <
    distributed_engine_count_factor_of_propulsion_total_num_engines) (h1 : 0 <
    propulsion_total_scaled_sls_thrust) :
    HasDerivAt (fun t => out_propulsion_total_engine_controls_mass distributed_engine_count_factor_of_propulsion_total_num_engines t) (J_propulsion_total_engine_controls_mass__propulsion_total_scaled_sls_thrust distributed_engine_count_factor_of_propulsion_total_num_engines propulsion_total_scaled_sls_thrust) propulsion_total_scaled_sls_thrust := by
  simp only [out_propulsion_total_engine_controls_mass, J_propulsion_total_engine_controls_mass__propulsion_total_scaled_sls_thrust, distributed_thrust_factor_exp, total_controls_weight, thrust_factor]
  (apply hasDerivAt_of_eq; on_goal 1 => (repeat' comp_step))
  all_goals try comp_side
  all_goals try simp (disch := first | assumption | positivity) only [div_mul_eq_div_div, div_half, inv_half]
  all_goals try simp only [mul_zero, zero_mul, add_zero, zero_add, sub_zero, zero_sub, mul_one, one_mul]
  all_goals try push_cast
  all_goals comp_eq

/-- Every partial derivative set by `TransportEngineCtrlsMass` is the derivative of its output. -/
theorem partials (distributed_engine_count_factor_of_propulsion_total_num_engines
    propulsion_total_scaled_sls_thrust : ℝ) (h0 : 0 <
    distributed_engine_count_factor_of_propulsion_total_num_engines) (h1 : 0 <
    propulsion_total_scaled_sls_thrust) :
    HasDerivAt (fun t => out_propulsion_total_engine_controls_mass
      distributed_engine_count_factor_of_propulsion_total_num_engines t)
      (J_propulsion_total_engine_controls_mass__propulsion_total_scaled_sls_thrust
      distributed_engine_count_factor_of_propulsion_total_num_engines
      propulsion_total_scaled_sls_thrust) propulsion_total_scaled_sls_thrust :=
  d_propulsion_total_engine_controls_mass__propulsion_total_scaled_sls_thrust _ _ h0 h1

example : ∃ distributed_engine_count_factor_of_propulsion_total_num_engines
      propulsion_total_scaled_sls_thrust : ℝ,
      0 < distributed_engine_count_factor_of_propulsion_total_num_engines ∧
      0 < propulsion_total_scaled_sls_thrust :=
  ⟨1, 1, by comp_example, by comp_example⟩

end Verif.Comp.MassFlopsBasedEngineControls.TransportEngineCtrlsMass

