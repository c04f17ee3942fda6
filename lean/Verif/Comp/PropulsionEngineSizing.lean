import Verif.Lemmas.CompDeriv

/-! # Partial derivatives of the components of `aviary/subsystems/propulsion/engine_sizing.py`

One node of a vector component is modelled over the real numbers.  Each option that selects a
branch is fixed, one namespace per choice.  `out_x` is the output `x`, `J_x__y` the entry that
`compute_partials` (or `declare_partials` with `val`) assigns, `d_x__y` the proof that the entry is
the derivative.  Inputs an output does not take as argument have no influence on it. -/

set_option linter.all false

namespace Verif.Comp.PropulsionEngineSizing.SizeEngine
open Real

/-- aviary/subsystems/propulsion/engine_sizing.py:36 -/
noncomputable def scaled_sls_thrust (engine_reference_sls_thrust engine_scale_factor : ℝ) : ℝ :=
  engine_scale_factor * engine_reference_sls_thrust

/-- Output `engine_scaled_sls_thrust` of `SizeEngine.compute`, aviary/subsystems/propulsion/engine_sizing.py:38 -/
noncomputable def out_engine_scaled_sls_thrust (engine_reference_sls_thrust engine_scale_factor : ℝ) : ℝ :=
  scaled_sls_thrust engine_reference_sls_thrust engine_scale_factor

/-- Partial of `engine_scaled_sls_thrust` with respect to `engine_scale_factor` as set by `SizeEngine`, aviary/subsystems/propulsion/engine_sizing.py:50 -/
noncomputable def J_engine_scaled_sls_thrust__engine_scale_factor (engine_reference_sls_thrust : ℝ) : ℝ :=
  engine_reference_sls_thrust

/-- Partial of `engine_scaled_sls_thrust` with respect to `engine_reference_sls_thrust` as set by `SizeEngine`, aviary/subsystems/propulsion/engine_sizing.py:51 -/
noncomputable def J_engine_scaled_sls_thrust__engine_reference_sls_thrust (engine_scale_factor : ℝ) : ℝ :=
  engine_scale_factor

theorem d_engine_scaled_sls_thrust__engine_reference_sls_thrust (engine_reference_sls_thrust
    engine_scale_factor : ℝ)  :
    HasDerivAt (fun t => out_engine_scaled_sls_thrust t engine_scale_factor) (J_engine_scaled_sls_thrust__engine_reference_sls_thrust engine_scale_factor) engine_reference_sls_thrust := by
  simp only [out_engine_scaled_sls_thrust, J_engine_scaled_sls_thrust__engine_reference_sls_thrust, scaled_sls_thrust]
  (apply hasDerivAt_of_eq; on_goal 1 => (repeat' comp_step))
  all_goals try comp_side
  all_goals try simp only [mul_zero, zero_mul, add_zero, zero_add, sub_zero, zero_sub, mul_one, one_mul]
  all_goals try push_cast
  all_goals comp_eq

theorem d_engine_scaled_sls_thrust__engine_scale_factor (engine_reference_sls_thrust
    engine_scale_factor : ℝ)  :
    HasDerivAt (fun t => out_engine_scaled_sls_thrust engine_reference_sls_thrust t) (J_engine_scaled_sls_thrust__engine_scale_factor engine_reference_sls_thrust) engine_scale_factor := by
  simp only [out_engine_scaled_sls_thrust, J_engine_scaled_sls_thrust__engine_scale_factor, scaled_sls_thrust]
  (apply hasDerivAt_of_eq; on_goal 1 => (repeat' comp_step))
  all_goals try comp_side
  all_goals try simp only [mul_zero, zero_mul, add_zero, zero_add, sub_zero, zero_sub, mul_one, one_mul]
  all_goals try push_cast
  all_goals comp_eq

/-- Every partial derivative set by `SizeEngine` is the derivative of its output. -/
theorem partials (engine_reference_sls_thrust engine_scale_factor : ℝ) :
    HasDerivAt (fun t => out_engine_scaled_sls_thrust t engine_scale_factor)
      (J_engine_scaled_sls_thrust__engine_reference_sls_thrust engine_scale_factor)
      engine_reference_sls_thrust ∧
    HasDerivAt (fun t => out_engine_scaled_sls_thrust engine_reference_sls_thrust t)
      (J_engine_scaled_sls_thrust__engine_scale_factor engine_reference_sls_thrust)
      engine_scale_factor :=
  ⟨d_engine_scaled_sls_thrust__engine_reference_sls_thrust _ _,
    d_engine_scaled_sls_thrust__engine_scale_factor _ _⟩

end Verif.Comp.PropulsionEngineSizing.SizeEngine

