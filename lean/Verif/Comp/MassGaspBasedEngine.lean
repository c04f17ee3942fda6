import Verif.Lemmas.CompDeriv

/-! # Partial derivatives of the components of `aviary/subsystems/mass/gasp_based/engine.py`

One node of a vector component is modelled over the real numbers.  Each option that selects a
branch is fixed, one namespace per choice.  `out_x` is the output `x`, `J_x__y` the entry that
`compute_partials` (or `declare_partials` with `val`) assigns, `d_x__y` the proof that the entry is
the derivative.  Inputs an output does not take as argument have no influence on it. -/

set_option linter.all false

namespace Verif.Comp.MassGaspBasedEngine.AdditionalEngineMass
open Real

/-- aviary/subsystems/mass/gasp_based/engine.py:313 -/
noncomputable def dry_wt_eng (engine_mass_specific engine_scaled_sls_thrust : ℝ) : ℝ :=
  engine_mass_specific * engine_scaled_sls_thrust

/-- aviary/subsystems/mass/gasp_based/engine.py:315 -/
noncomputable def eng_instl_wt (engine_additional_mass_fraction engine_mass_specific engine_scaled_sls_thrust : ℝ) : ℝ :=
  engine_additional_mass_fraction * (dry_wt_eng engine_mass_specific engine_scaled_sls_thrust)

/-- Output `engine_additional_mass` of `AdditionalEngineMass.compute`, aviary/subsystems/mass/gasp_based/engine.py:317 -/
noncomputable def out_engine_additional_mass (engine_additional_mass_fraction propulsion_misc_mass_scaler engine_mass_specific engine_scaled_sls_thrust : ℝ) : ℝ :=
  propulsion_misc_mass_scaler * (eng_instl_wt engine_additional_mass_fraction
    engine_mass_specific engine_scaled_sls_thrust)

/-- Partial of `engine_additional_mass` with respect to `engine_mass_specific` as set by `AdditionalEngineMass`, aviary/subsystems/mass/gasp_based/engine.py:326 -/
noncomputable def J_engine_additional_mass__engine_mass_specific (engine_additional_mass_fraction propulsion_misc_mass_scaler engine_scaled_sls_thrust : ℝ) : ℝ :=
  (propulsion_misc_mass_scaler * engine_additional_mass_fraction) * engine_scaled_sls_thrust

/-- Partial of `engine_additional_mass` with respect to `engine_scaled_sls_thrust` as set by `AdditionalEngineMass`, aviary/subsystems/mass/gasp_based/engine.py:327 -/
noncomputable def J_engine_additional_mass__engine_scaled_sls_thrust (engine_additional_mass_fraction propulsion_misc_mass_scaler engine_mass_specific : ℝ) : ℝ :=
  (propulsion_misc_mass_scaler * engine_additional_mass_fraction) * engine_mass_specific

/-- Partial of `engine_additional_mass` with respect to `propulsion_misc_mass_scaler` as set by `AdditionalEngineMass`, aviary/subsystems/mass/gasp_based/engine.py:330 -/
noncomputable def J_engine_additional_mass__propulsion_misc_mass_scaler (engine_additional_mass_fraction engine_mass_specific engine_scaled_sls_thrust : ℝ) : ℝ :=
  (engine_additional_mass_fraction * engine_mass_specific) * engine_scaled_sls_thrust

theorem d_engine_additional_mass__propulsion_misc_mass_scaler (engine_additional_mass_fraction
    propulsion_misc_mass_scaler engine_mass_specific engine_scaled_sls_thrust : ℝ)  :
    HasDerivAt (fun t => out_engine_additional_mass engine_additional_mass_fraction t engine_mass_specific engine_scaled_sls_thrust) (J_engine_additional_mass__propulsion_misc_mass_scaler engine_additional_mass_fraction engine_mass_specific engine_scaled_sls_thrust) propulsion_misc_mass_scaler := by
  simp only [out_engine_additional_mass, J_engine_additional_mass__propulsion_misc_mass_scaler, eng_instl_wt, dry_wt_eng]
  (apply hasDerivAt_of_eq; on_goal 1 => (repeat' comp_step))
  all_goals try comp_side
  all_goals try simp only [mul_zero, zero_mul, add_zero, zero_add, sub_zero, zero_sub, mul_one, one_mul]
  all_goals try push_cast
  all_goals comp_eq

theorem d_engine_additional_mass__engine_mass_specific (engine_additional_mass_fraction
    propulsion_misc_mass_scaler engine_mass_specific engine_scaled_sls_thrust : ℝ)  :
    HasDerivAt (fun t => out_engine_additional_mass engine_additional_mass_fraction propulsion_misc_mass_scaler t engine_scaled_sls_thrust) (J_engine_additional_mass__engine_mass_specific engine_additional_mass_fraction propulsion_misc_mass_scaler engine_scaled_sls_thrust) engine_mass_specific := by
  simp only [out_engine_additional_mass, J_engine_additional_mass__engine_mass_specific, eng_instl_wt, dry_wt_eng]
  (apply hasDerivAt_of_eq; on_goal 1 => (repeat' comp_step))
  all_goals try comp_side
  all_goals try simp only [mul_zero, zero_mul, add_zero, zero_add, sub_zero, zero_sub, mul_one, one_mul]
  all_goals try push_cast
  all_goals comp_eq

theorem d_engine_additional_mass__engine_scaled_sls_thrust (engine_additional_mass_fraction
    propulsion_misc_mass_scaler engine_mass_specific engine_scaled_sls_thrust : ℝ)  :
    HasDerivAt (fun t => out_engine_additional_mass engine_additional_mass_fraction propulsion_misc_mass_scaler engine_mass_specific t) (J_engine_additional_mass__engine_scaled_sls_thrust engine_additional_mass_fraction propulsion_misc_mass_scaler engine_mass_specific) engine_scaled_sls_thrust := by
  simp only [out_engine_additional_mass, J_engine_additional_mass__engine_scaled_sls_thrust, eng_instl_wt, dry_wt_eng]
  (apply hasDerivAt_of_eq; on_goal 1 => (repeat' comp_step))
  all_goals try comp_side
  all_goals try simp only [mul_zero, zero_mul, add_zero, zero_add, sub_zero, zero_sub, mul_one, one_mul]
  all_goals try push_cast
  all_goals comp_eq

/-- Every partial derivative set by `AdditionalEngineMass` is the derivative of its output. -/
theorem partials (engine_additional_mass_fraction propulsion_misc_mass_scaler engine_mass_specific
    engine_scaled_sls_thrust : ℝ) :
    HasDerivAt (fun t => out_engine_additional_mass engine_additional_mass_fraction t
      engine_mass_specific engine_scaled_sls_thrust)
      (J_engine_additional_mass__propulsion_misc_mass_scaler engine_additional_mass_fraction
      engine_mass_specific engine_scaled_sls_thrust) propulsion_misc_mass_scaler ∧
    HasDerivAt (fun t => out_engine_additional_mass engine_additional_mass_fraction
      propulsion_misc_mass_scaler t engine_scaled_sls_thrust)
      (J_engine_additional_mass__engine_mass_specific engine_additional_mass_fraction
      propulsion_misc_mass_scaler engine_scaled_sls_thrust) engine_mass_specific ∧
    HasDerivAt (fun t => out_engine_additional_mass engine_additional_mass_fraction
      propulsion_misc_mass_scaler engine_mass_specific t)
      (J_engine_additional_mass__engine_scaled_sls_thrust engine_additional_mass_fraction
      propulsion_misc_mass_scaler engine_mass_specific) engine_scaled_sls_thrust :=
  ⟨d_engine_additional_mass__propulsion_misc_mass_scaler _ _ _ _,
    d_engine_additional_mass__engine_mass_specific _ _ _ _,
    d_engine_additional_mass__engine_scaled_sls_thrust _ _ _ _⟩

end Verif.Comp.MassGaspBasedEngine.AdditionalEngineMass

