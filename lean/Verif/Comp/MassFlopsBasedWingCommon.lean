import Verif.Lemmas.CompDeriv

/-! # Partial derivatives of the components of `aviary/subsystems/mass/flops_based/wing_common.py`

One node of a vector component is modelled over the real numbers.  Each option that selects a
branch is fixed, one namespace per choice.  `out_x` is the output `x`, `J_x__y` the entry that
`compute_partials` (or `declare_partials` with `val`) assigns, `d_x__y` the proof that the entry is
the derivative.  Inputs an output does not take as argument have no influence on it.

* `WingBendingMass`: not proved: `wing_bending_material_mass` by
  `wing_aeroelastic_tailoring_factor`, `wing_bending_material_mass` by
  `wing_bending_material_factor`, `wing_bending_material_mass` by `wing_composite_fraction`,
  `wing_bending_material_mass` by `wing_load_fraction`, `wing_bending_material_mass` by
  `wing_span`, `wing_bending_material_mass` by `wing_sweep`, `wing_bending_material_mass` by
  `wing_ultimate_load_factor`, `wing_bending_material_mass` by `wing_var_sweep_mass_penalty` -/

set_option linter.all false

namespace Verif.Comp.MassFlopsBasedWingCommon.BWBWingMiscMass
open Real

/-- Output `wing_misc_mass` of `BWBWingMiscMass.compute`, aviary/subsystems/mass/flops_based/wing_common.py:400 -/
noncomputable def out_wing_misc_mass (wing_composite_fraction calculated_wing_area wing_misc_mass_scaler : ℝ) : ℝ :=
  (((7 / 200) * (1 - ((3 / 10) * wing_composite_fraction))) * (calculated_wing_area ^ ((3 / 2) :
    ℝ))) * wing_misc_mass_scaler

/-- Partial of `wing_misc_mass` with respect to `wing_composite_fraction` as set by `BWBWingMiscMass`, aviary/subsystems/mass/flops_based/wing_common.py:409 -/
noncomputable def J_wing_misc_mass__wing_composite_fraction (calculated_wing_area wing_misc_mass_scaler : ℝ) : ℝ :=
  ((-(21 / 2000)) * (calculated_wing_area ^ ((3 / 2) : ℝ))) * wing_misc_mass_scaler

/-- Partial of `wing_misc_mass` with respect to `calculated_wing_area` as set by `BWBWingMiscMass`, aviary/subsystems/mass/flops_based/wing_common.py:412 -/
noncomputable def J_wing_misc_mass__calculated_wing_area (wing_composite_fraction calculated_wing_area wing_misc_mass_scaler : ℝ) : ℝ :=
  ((((7 / 200) * (1 - ((3 / 10) * wing_composite_fraction))) * (3 / 2)) * (calculated_wing_area
    ^ ((1 / 2) : ℝ))) * wing_misc_mass_scaler

/-- Partial of `wing_misc_mass` with respect to `wing_misc_mass_scaler` as set by `BWBWingMiscMass`, aviary/subsystems/mass/flops_based/wing_common.py:420 -/
noncomputable def J_wing_misc_mass__wing_misc_mass_scaler (wing_composite_fraction calculated_wing_area : ℝ) : ℝ :=
  ((7 / 200) * (1 - ((3 / 10) * wing_composite_fraction))) * (calculated_wing_area ^ ((3 / 2) :
    ℝ))

theorem d_wing_misc_mass__wing_composite_fraction (wing_composite_fraction calculated_wing_area
    wing_misc_mass_scaler : ℝ) (h0 : 0 < calculated_wing_area) :
    HasDerivAt (fun t => out_wing_misc_mass t calculated_wing_area wing_misc_mass_scaler) (J_wing_misc_mass__wing_composite_fraction calculated_wing_area wing_misc_mass_scaler) wing_composite_fraction := by
  have e0 : ∀ x : ℝ, 0 < x → x ^ ((3 / 2) : ℝ) = x ^ ((1 / 2) : ℝ) * x ^ 1 := fun x hx => rpow_up hx 1 (by norm_num)
  simp only [out_wing_misc_mass, J_wing_misc_mass__wing_composite_fraction]
  (apply hasDerivAt_of_eq; on_goal 1 => (repeat' comp_step))
  all_goals try comp_side
  all_goals try simp (disch := first | assumption | positivity) only [e0, div_mul_eq_div_div, div_half, inv_half]
  all_goals try simp only [mul_zero, zero_mul, add_zero, zero_add, sub_zero, zero_sub, mul_one, one_mul]
  all_goals try push_cast
  all_goals comp_eq

theorem d_wing_misc_mass__calculated_wing_area (wing_composite_fraction calculated_wing_area
    wing_misc_mass_scaler : ℝ) (h0 : 0 < calculated_wing_area) :
    HasDerivAt (fun t => out_wing_misc_mass wing_composite_fraction t wing_misc_mass_scaler) (J_wing_misc_mass__calculated_wing_area wing_composite_fraction calculated_wing_area wing_misc_mass_scaler) calculated_wing_area := by
  have e0 : ∀ x : ℝ, 0 < x → x ^ ((3 / 2) : ℝ) = x ^ ((1 / 2) : ℝ) * x ^ 1 := fun x hx => rpow_up hx 1 (by norm_num)
  simp only [out_wing_misc_mass, J_wing_misc_mass__calculated_wing_area]
  (apply hasDerivAt_of_eq; on_goal 1 => (repeat' comp_step))
  all_goals try comp_side
  all_goals try simp (disch := first | assumption | positivity) only [e0, div_mul_eq_div_div, div_half, inv_half]
  all_goals try simp only [mul_zero, zero_mul, add_zero, zero_add, sub_zero, zero_sub, mul_one, one_mul]
  all_goals try push_cast
  all_goals comp_eq

theorem d_wing_misc_mass__wing_misc_mass_scaler (wing_composite_fraction calculated_wing_area
    wing_misc_mass_scaler : ℝ) (h0 : 0 < calculated_wing_area) :
    HasDerivAt (fun t => out_wing_misc_mass wing_composite_fraction calculated_wing_area t) (J_wing_misc_mass__wing_misc_mass_scaler wing_composite_fraction calculated_wing_area) wing_misc_mass_scaler := by
  have e0 : ∀ x : ℝ, 0 < x → x ^ ((3 / 2) : ℝ) = x ^ ((1 / 2) : ℝ) * x ^ 1 := fun x hx => rpow_up hx 1 (by norm_num)
  simp only [out_wing_misc_mass, J_wing_misc_mass__wing_misc_mass_scaler]
  (apply hasDerivAt_of_eq; on_goal 1 => (repeat' comp_step))
  all_goals try comp_side
  all_goals try simp (disch := first | assumption | positivity) only [e0, div_mul_eq_div_div, div_half, inv_half]
  all_goals try simp only [mul_zero, zero_mul, add_zero, zero_add, sub_zero, zero_sub, mul_one, one_mul]
  all_goals try push_cast
  all_goals comp_eq

/-- Every partial derivative set by `BWBWingMiscMass` is the derivative of its output. -/
theorem partials (wing_composite_fraction calculated_wing_area wing_misc_mass_scaler : ℝ) (h0 : 0
    < calculated_wing_area) :
    HasDerivAt (fun t => out_wing_misc_mass t calculated_wing_area wing_misc_mass_scaler)
      (J_wing_misc_mass__wing_composite_fraction calculated_wing_area wing_misc_mass_scaler)
      wing_composite_fraction ∧
    HasDerivAt (fun t => out_wing_misc_mass wing_composite_fraction t wing_misc_mass_scaler)
      (J_wing_misc_mass__calculated_wing_area wing_composite_fraction calculated_wing_area
      wing_misc_mass_scaler) calculated_wing_area ∧
    HasDerivAt (fun t => out_wing_misc_mass wing_composite_fraction calculated_wing_area t)
      (J_wing_misc_mass__wing_misc_mass_scaler wing_composite_fraction calculated_wing_area)
      wing_misc_mass_scaler :=
  ⟨d_wing_misc_mass__wing_composite_fraction _ _ _ h0, d_wing_misc_mass__calculated_wing_area _ _
    _ h0, d_wing_misc_mass__wing_misc_mass_scaler _ _ _ h0⟩

example : ∃ wing_composite_fraction calculated_wing_area wing_misc_mass_scaler : ℝ,
      0 < calculated_wing_area :=
  ⟨0, 1, 0, by comp_example⟩

end Verif.Comp.MassFlopsBasedWingCommon.BWBWingMiscMass

namespace Verif.Comp.MassFlopsBasedWingCommon.WingBendingMass
open Real

/-- aviary/subsystems/mass/flops_based/wing_common.py:60 -/
noncomputable abbrev w2 (wing_shear_control_mass wing_shear_control_mass_scaler : ℝ) : ℝ :=
  wing_shear_control_mass / wing_shear_control_mass_scaler

/-- aviary/subsystems/mass/flops_based/wing_common.py:65 -/
noncomputable abbrev w3 (wing_misc_mass wing_misc_mass_scaler : ℝ) : ℝ :=
  wing_misc_mass / wing_misc_mass_scaler

/-- aviary/subsystems/mass/flops_based/wing_common.py:71 -/
noncomputable abbrev vfact (wing_var_sweep_mass_penalty wing_sweep : ℝ) : ℝ :=
  1 + (wing_var_sweep_mass_penalty * (((24 / 25) / (cos ((π / 180) * wing_sweep))) - 1))

/-- aviary/subsystems/mass/flops_based/wing_common.py:72 -/
noncomputable abbrev cayf (fuselage_num_fuselages : ℝ) : ℝ :=
  if 1 < fuselage_num_fuselages then (1 / 2) else 1

/-- aviary/subsystems/mass/flops_based/wing_common.py:74 -/
noncomputable abbrev w1nir (fuselage_num_fuselages wing_bending_material_factor wing_ultimate_load_factor wing_span wing_composite_fraction wing_aeroelastic_tailoring_factor wing_var_sweep_mass_penalty wing_load_fraction wing_sweep : ℝ) : ℝ :=
  ((((((((((44 / 5) * wing_bending_material_factor) * (1 + (((25 / 4) / wing_span) ^ ((1 / 2) :
    ℝ)))) * wing_ultimate_load_factor) * wing_span) * (1 - ((2 / 5) * wing_composite_fraction)))
    * (1 - ((1 / 10) * wing_aeroelastic_tailoring_factor))) * (cayf fuselage_num_fuselages)) *
    (vfact wing_var_sweep_mass_penalty wing_sweep)) * wing_load_fraction) * (1 / 1000000)

/-- aviary/subsystems/mass/flops_based/wing_common.py:113 -/
noncomputable abbrev deg2rad : ℝ := π / 180

/-- aviary/subsystems/mass/flops_based/wing_common.py:114 -/
noncomputable abbrev term (wing_sweep : ℝ) : ℝ := (24 / 25) / (cos (deg2rad * wing_sweep))

/-- aviary/subsystems/mass/flops_based/wing_common.py:115 -/
noncomputable abbrev vfact_2 (wing_var_sweep_mass_penalty wing_sweep : ℝ) : ℝ :=
  1 + (wing_var_sweep_mass_penalty * ((term wing_sweep) - 1))

/-- aviary/subsystems/mass/flops_based/wing_common.py:116 -/
noncomputable abbrev dvfact_varswp (wing_sweep : ℝ) : ℝ := (term wing_sweep) - 1

/-- aviary/subsystems/mass/flops_based/wing_common.py:117 -/
noncomputable abbrev dvfact_sweep (wing_var_sweep_mass_penalty wing_sweep : ℝ) : ℝ :=
  ((wing_var_sweep_mass_penalty * deg2rad) * (term wing_sweep)) * (tan (deg2rad * wing_sweep))

/-- aviary/subsystems/mass/flops_based/wing_common.py:120 -/
noncomputable abbrev fact0 (wing_span : ℝ) : ℝ := ((25 / 4) / wing_span) ^ ((1 / 2) : ℝ)

/-- aviary/subsystems/mass/flops_based/wing_common.py:121 -/
noncomputable abbrev fact1 (wing_span : ℝ) : ℝ := 1 + (fact0 wing_span)

/-- aviary/subsystems/mass/flops_based/wing_common.py:122 -/
noncomputable abbrev fact2 (wing_composite_fraction : ℝ) : ℝ :=
  1 - ((2 / 5) * wing_composite_fraction)

/-- aviary/subsystems/mass/flops_based/wing_common.py:123 -/
noncomputable abbrev fact3 (wing_aeroelastic_tailoring_factor : ℝ) : ℝ :=
  1 - ((1 / 10) * wing_aeroelastic_tailoring_factor)

/-- aviary/subsystems/mass/flops_based/wing_common.py:124 -/
noncomputable abbrev w1nir_2 (fuselage_num_fuselages wing_bending_material_factor wing_ultimate_load_factor wing_span wing_composite_fraction wing_aeroelastic_tailoring_factor wing_var_sweep_mass_penalty wing_load_fraction wing_sweep : ℝ) : ℝ :=
  ((((((((((44 / 5) * wing_bending_material_factor) * (fact1 wing_span)) *
    wing_ultimate_load_factor) * wing_span) * (fact2 wing_composite_fraction)) * (fact3
    wing_aeroelastic_tailoring_factor)) * (cayf fuselage_num_fuselages)) * (vfact_2
    wing_var_sweep_mass_penalty wing_sweep)) * wing_load_fraction) * (1 / 1000000)

/-- aviary/subsystems/mass/flops_based/wing_common.py:125 -/
noncomputable abbrev dw1nir_bt (fuselage_num_fuselages wing_ultimate_load_factor wing_span wing_composite_fraction wing_aeroelastic_tailoring_factor wing_var_sweep_mass_penalty wing_load_fraction wing_sweep : ℝ) : ℝ :=
  (((((((((44 / 5) * (fact1 wing_span)) * wing_ultimate_load_factor) * wing_span) * (fact2
    wing_composite_fraction)) * (fact3 wing_aeroelastic_tailoring_factor)) * (cayf
    fuselage_num_fuselages)) * (vfact_2 wing_var_sweep_mass_penalty wing_sweep)) *
    wing_load_fraction) * (1 / 1000000)

/-- aviary/subsystems/mass/flops_based/wing_common.py:126 -/
noncomputable abbrev dw1nir_ulf (fuselage_num_fuselages wing_bending_material_factor wing_span wing_composite_fraction wing_aeroelastic_tailoring_factor wing_var_sweep_mass_penalty wing_load_fraction wing_sweep : ℝ) : ℝ :=
  (((((((((44 / 5) * wing_bending_material_factor) * (fact1 wing_span)) * wing_span) * (fact2
    wing_composite_fraction)) * (fact3 wing_aeroelastic_tailoring_factor)) * (cayf
    fuselage_num_fuselages)) * (vfact_2 wing_var_sweep_mass_penalty wing_sweep)) *
    wing_load_fraction) * (1 / 1000000)

/-- aviary/subsystems/mass/flops_based/wing_common.py:127 -/
noncomputable abbrev dw1nir_pctl (fuselage_num_fuselages wing_bending_material_factor wing_ultimate_load_factor wing_span wing_composite_fraction wing_aeroelastic_tailoring_factor wing_var_sweep_mass_penalty wing_sweep : ℝ) : ℝ :=
  (((((((((44 / 5) * wing_bending_material_factor) * (fact1 wing_span)) *
    wing_ultimate_load_factor) * wing_span) * (fact2 wing_composite_fraction)) * (fact3
    wing_aeroelastic_tailoring_factor)) * (cayf fuselage_num_fuselages)) * (vfact_2
    wing_var_sweep_mass_penalty wing_sweep)) * (1 / 1000000)

/-- aviary/subsystems/mass/flops_based/wing_common.py:128 -/
noncomputable abbrev dw1nir_compfrac (fuselage_num_fuselages wing_bending_material_factor wing_ultimate_load_factor wing_span wing_aeroelastic_tailoring_factor wing_var_sweep_mass_penalty wing_load_fraction wing_sweep : ℝ) : ℝ :=
  ((((((((((-(44 / 5)) * wing_bending_material_factor) * (fact1 wing_span)) *
    wing_ultimate_load_factor) * wing_span) * (2 / 5)) * (fact3
    wing_aeroelastic_tailoring_factor)) * (cayf fuselage_num_fuselages)) * (vfact_2
    wing_var_sweep_mass_penalty wing_sweep)) * wing_load_fraction) * (1 / 1000000)

/-- aviary/subsystems/mass/flops_based/wing_common.py:131 -/
noncomputable abbrev dw1nir_faert (fuselage_num_fuselages wing_bending_material_factor wing_ultimate_load_factor wing_span wing_composite_fraction wing_var_sweep_mass_penalty wing_load_fraction wing_sweep : ℝ) : ℝ :=
  ((((((((((-(44 / 5)) * wing_bending_material_factor) * (fact1 wing_span)) *
    wing_ultimate_load_factor) * wing_span) * (fact2 wing_composite_fraction)) * (1 / 10)) *
    (cayf fuselage_num_fuselages)) * (vfact_2 wing_var_sweep_mass_penalty wing_sweep)) *
    wing_load_fraction) * (1 / 1000000)

/-- aviary/subsystems/mass/flops_based/wing_common.py:134 -/
noncomputable abbrev dw1nir_varswp (fuselage_num_fuselages wing_bending_material_factor wing_ultimate_load_factor wing_span wing_composite_fraction wing_aeroelastic_tailoring_factor wing_load_fraction wing_sweep : ℝ) : ℝ :=
  ((((((((((44 / 5) * wing_bending_material_factor) * (fact1 wing_span)) *
    wing_ultimate_load_factor) * wing_span) * (fact2 wing_composite_fraction)) * (fact3
    wing_aeroelastic_tailoring_factor)) * (cayf fuselage_num_fuselages)) * (dvfact_varswp
    wing_sweep)) * wing_load_fraction) * (1 / 1000000)

/-- aviary/subsystems/mass/flops_based/wing_common.py:137 -/
noncomputable abbrev dw1nir_sweep (fuselage_num_fuselages wing_bending_material_factor wing_ultimate_load_factor wing_span wing_composite_fraction wing_aeroelastic_tailoring_factor wing_var_sweep_mass_penalty wing_load_fraction wing_sweep : ℝ) : ℝ :=
  ((((((((((44 / 5) * wing_bending_material_factor) * (fact1 wing_span)) *
    wing_ultimate_load_factor) * wing_span) * (fact2 wing_composite_fraction)) * (fact3
    wing_aeroelastic_tailoring_factor)) * (cayf fuselage_num_fuselages)) * (dvfact_sweep
    wing_var_sweep_mass_penalty wing_sweep)) * wing_load_fraction) * (1 / 1000000)

/-- aviary/subsystems/mass/flops_based/wing_common.py:141 -/
noncomputable abbrev dfact1_span (wing_span : ℝ) : ℝ :=
  (-(25 / 8)) / (((fact0 wing_span) * wing_span) * wing_span)

/-- aviary/subsystems/mass/flops_based/wing_common.py:142 -/
noncomputable abbrev dw1nir_span (fuselage_num_fuselages wing_bending_material_factor wing_ultimate_load_factor wing_span wing_composite_fraction wing_aeroelastic_tailoring_factor wing_var_sweep_mass_penalty wing_load_fraction wing_sweep : ℝ) : ℝ :=
  (((((((((44 / 5) * wing_bending_material_factor) * (((dfact1_span wing_span) * wing_span) +
    (fact1 wing_span))) * wing_ultimate_load_factor) * (fact2 wing_composite_fraction)) * (fact3
    wing_aeroelastic_tailoring_factor)) * (cayf fuselage_num_fuselages)) * (vfact_2
    wing_var_sweep_mass_penalty wing_sweep)) * wing_load_fraction) * (1 / 1000000)

/-- aviary/subsystems/mass/flops_based/wing_common.py:155 -/
noncomputable abbrev fact1_2 (fuselage_num_fuselages wing_bending_material_factor wing_ultimate_load_factor wing_span wing_composite_fraction wing_aeroelastic_tailoring_factor wing_var_sweep_mass_penalty wing_load_fraction wing_sweep design_gross_mass wing_eng_pod_inertia_factor wing_shear_control_mass wing_shear_control_mass_scaler wing_misc_mass wing_misc_mass_scaler : ℝ) : ℝ :=
  (((design_gross_mass * wing_eng_pod_inertia_factor) * (w1nir_2 fuselage_num_fuselages
    wing_bending_material_factor wing_ultimate_load_factor wing_span wing_composite_fraction
    wing_aeroelastic_tailoring_factor wing_var_sweep_mass_penalty wing_load_fraction
    wing_sweep)) + (wing_shear_control_mass / wing_shear_control_mass_scaler)) + (wing_misc_mass
    / wing_misc_mass_scaler)

/-- aviary/subsystems/mass/flops_based/wing_common.py:156 -/
noncomputable abbrev fact2_2 (fuselage_num_fuselages wing_bending_material_factor wing_ultimate_load_factor wing_span wing_composite_fraction wing_aeroelastic_tailoring_factor wing_var_sweep_mass_penalty wing_load_fraction wing_sweep : ℝ) : ℝ :=
  1 / (1 + (w1nir_2 fuselage_num_fuselages wing_bending_material_factor
    wing_ultimate_load_factor wing_span wing_composite_fraction
    wing_aeroelastic_tailoring_factor wing_var_sweep_mass_penalty wing_load_fraction
    wing_sweep))

/-- aviary/subsystems/mass/flops_based/wing_common.py:157 -/
noncomputable abbrev dbend_w1nir (fuselage_num_fuselages wing_bending_material_factor wing_ultimate_load_factor wing_span wing_composite_fraction wing_aeroelastic_tailoring_factor wing_var_sweep_mass_penalty wing_load_fraction wing_sweep design_gross_mass wing_eng_pod_inertia_factor wing_bending_material_mass_scaler wing_shear_control_mass wing_shear_control_mass_scaler wing_misc_mass wing_misc_mass_scaler : ℝ) : ℝ :=
  wing_bending_material_mass_scaler * (((design_gross_mass * wing_eng_pod_inertia_factor) *
    (fact2_2 fuselage_num_fuselages wing_bending_material_factor wing_ultimate_load_factor
    wing_span wing_composite_fraction wing_aeroelastic_tailoring_factor
    wing_var_sweep_mass_penalty wing_load_fraction wing_sweep)) - ((fact1_2
    fuselage_num_fuselages wing_bending_material_factor wing_ultimate_load_factor wing_span
    wing_composite_fraction wing_aeroelastic_tailoring_factor wing_var_sweep_mass_penalty
    wing_load_fraction wing_sweep design_gross_mass wing_eng_pod_inertia_factor
    wing_shear_control_mass wing_shear_control_mass_scaler wing_misc_mass wing_misc_mass_scaler)
    * ((fact2_2 fuselage_num_fuselages wing_bending_material_factor wing_ultimate_load_factor
    wing_span wing_composite_fraction wing_aeroelastic_tailoring_factor
    wing_var_sweep_mass_penalty wing_load_fraction wing_sweep) ^ 2)))

/-- Output `wing_bending_material_mass` of `WingBendingMass.compute`, aviary/subsystems/mass/flops_based/wing_common.py:88 -/
noncomputable def out_wing_bending_material_mass (fuselage_num_fuselages wing_bending_material_factor wing_ultimate_load_factor wing_span wing_composite_fraction wing_aeroelastic_tailoring_factor wing_var_sweep_mass_penalty wing_load_fraction wing_sweep design_gross_mass wing_eng_pod_inertia_factor wing_bending_material_mass_scaler wing_shear_control_mass wing_shear_control_mass_scaler wing_misc_mass wing_misc_mass_scaler : ℝ) : ℝ :=
  (((((((design_gross_mass * wing_eng_pod_inertia_factor) * (w1nir fuselage_num_fuselages
    wing_bending_material_factor wing_ultimate_load_factor wing_span wing_composite_fraction
    wing_aeroelastic_tailoring_factor wing_var_sweep_mass_penalty wing_load_fraction
    wing_sweep)) + (w2 wing_shear_control_mass wing_shear_control_mass_scaler)) + (w3
    wing_misc_mass wing_misc_mass_scaler)) / (1 + (w1nir fuselage_num_fuselages
    wing_bending_material_factor wing_ultimate_load_factor wing_span wing_composite_fraction
    wing_aeroelastic_tailoring_factor wing_var_sweep_mass_penalty wing_load_fraction
    wing_sweep))) - (w2 wing_shear_control_mass wing_shear_control_mass_scaler)) - (w3
    wing_misc_mass wing_misc_mass_scaler)) * wing_bending_material_mass_scaler

/-- Partial of `wing_bending_material_mass` with respect to `design_gross_mass` as set by `WingBendingMass`, aviary/subsystems/mass/flops_based/wing_common.py:159 -/
noncomputable def J_wing_bending_material_mass__design_gross_mass (fuselage_num_fuselages wing_bending_material_factor wing_ultimate_load_factor wing_span wing_composite_fraction wing_aeroelastic_tailoring_factor wing_var_sweep_mass_penalty wing_load_fraction wing_sweep wing_eng_pod_inertia_factor wing_bending_material_mass_scaler : ℝ) : ℝ :=
  ((wing_eng_pod_inertia_factor * (w1nir_2 fuselage_num_fuselages wing_bending_material_factor
    wing_ultimate_load_factor wing_span wing_composite_fraction
    wing_aeroelastic_tailoring_factor wing_var_sweep_mass_penalty wing_load_fraction
    wing_sweep)) * (fact2_2 fuselage_num_fuselages wing_bending_material_factor
    wing_ultimate_load_factor wing_span wing_composite_fraction
    wing_aeroelastic_tailoring_factor wing_var_sweep_mass_penalty wing_load_fraction
    wing_sweep)) * wing_bending_material_mass_scaler

/-- Partial of `wing_bending_material_mass` with respect to `wing_eng_pod_inertia_factor` as set by `WingBendingMass`, aviary/subsystems/mass/flops_based/wing_common.py:163 -/
noncomputable def J_wing_bending_material_mass__wing_eng_pod_inertia_factor (fuselage_num_fuselages wing_bending_material_factor wing_ultimate_load_factor wing_span wing_composite_fraction wing_aeroelastic_tailoring_factor wing_var_sweep_mass_penalty wing_load_fraction wing_sweep design_gross_mass wing_bending_material_mass_scaler : ℝ) : ℝ :=
  ((design_gross_mass * (w1nir_2 fuselage_num_fuselages wing_bending_material_factor
    wing_ultimate_load_factor wing_span wing_composite_fraction
    wing_aeroelastic_tailoring_factor wing_var_sweep_mass_penalty wing_load_fraction
    wing_sweep)) * (fact2_2 fuselage_num_fuselages wing_bending_material_factor
    wing_ultimate_load_factor wing_span wing_composite_fraction
    wing_aeroelastic_tailoring_factor wing_var_sweep_mass_penalty wing_load_fraction
    wing_sweep)) * wing_bending_material_mass_scaler

/-- Partial of `wing_bending_material_mass` with respect to `wing_shear_control_mass` as set by `WingBendingMass`, aviary/subsystems/mass/flops_based/wing_common.py:167 -/
noncomputable def J_wing_bending_material_mass__wing_shear_control_mass (fuselage_num_fuselages wing_bending_material_factor wing_ultimate_load_factor wing_span wing_composite_fraction wing_aeroelastic_tailoring_factor wing_var_sweep_mass_penalty wing_load_fraction wing_sweep wing_bending_material_mass_scaler wing_shear_control_mass_scaler : ℝ) : ℝ :=
  (((fact2_2 fuselage_num_fuselages wing_bending_material_factor wing_ultimate_load_factor
    wing_span wing_composite_fraction wing_aeroelastic_tailoring_factor
    wing_var_sweep_mass_penalty wing_load_fraction wing_sweep) - 1) *
    wing_bending_material_mass_scaler) / wing_shear_control_mass_scaler

/-- Partial of `wing_bending_material_mass` with respect to `wing_shear_control_mass_scaler` as set by `WingBendingMass`, aviary/subsystems/mass/flops_based/wing_common.py:171 -/
noncomputable def J_wing_bending_material_mass__wing_shear_control_mass_scaler (fuselage_num_fuselages wing_bending_material_factor wing_ultimate_load_factor wing_span wing_composite_fraction wing_aeroelastic_tailoring_factor wing_var_sweep_mass_penalty wing_load_fraction wing_sweep wing_bending_material_mass_scaler wing_shear_control_mass wing_shear_control_mass_scaler : ℝ) : ℝ :=
  (((-((fact2_2 fuselage_num_fuselages wing_bending_material_factor wing_ultimate_load_factor
    wing_span wing_composite_fraction wing_aeroelastic_tailoring_factor
    wing_var_sweep_mass_penalty wing_load_fraction wing_sweep) - 1)) *
    wing_bending_material_mass_scaler) * wing_shear_control_mass) /
    (wing_shear_control_mass_scaler ^ 2)

/-- Partial of `wing_bending_material_mass` with respect to `wing_misc_mass` as set by `WingBendingMass`, aviary/subsystems/mass/flops_based/wing_common.py:175 -/
noncomputable def J_wing_bending_material_mass__wing_misc_mass (fuselage_num_fuselages wing_bending_material_factor wing_ultimate_load_factor wing_span wing_composite_fraction wing_aeroelastic_tailoring_factor wing_var_sweep_mass_penalty wing_load_fraction wing_sweep wing_bending_material_mass_scaler wing_misc_mass_scaler : ℝ) : ℝ :=
  (((fact2_2 fuselage_num_fuselages wing_bending_material_factor wing_ultimate_load_factor
    wing_span wing_composite_fraction wing_aeroelastic_tailoring_factor
    wing_var_sweep_mass_penalty wing_load_fraction wing_sweep) - 1) *
    wing_bending_material_mass_scaler) / wing_misc_mass_scaler

/-- Partial of `wing_bending_material_mass` with respect to `wing_misc_mass_scaler` as set by `WingBendingMass`, aviary/subsystems/mass/flops_based/wing_common.py:179 -/
noncomputable def J_wing_bending_material_mass__wing_misc_mass_scaler (fuselage_num_fuselages wing_bending_material_factor wing_ultimate_load_factor wing_span wing_composite_fraction wing_aeroelastic_tailoring_factor wing_var_sweep_mass_penalty wing_load_fraction wing_sweep wing_bending_material_mass_scaler wing_misc_mass wing_misc_mass_scaler : ℝ) : ℝ :=
  (((-((fact2_2 fuselage_num_fuselages wing_bending_material_factor wing_ultimate_load_factor
    wing_span wing_composite_fraction wing_aeroelastic_tailoring_factor
    wing_var_sweep_mass_penalty wing_load_fraction wing_sweep) - 1)) *
    wing_bending_material_mass_scaler) * wing_misc_mass) / (wing_misc_mass_scaler ^ 2)

/-- Partial of `wing_bending_material_mass` with respect to `wing_bending_material_mass_scaler` as set by `WingBendingMass`, aviary/subsystems/mass/flops_based/wing_common.py:183 -/
noncomputable def J_wing_bending_material_mass__wing_bending_material_mass_scaler (fuselage_num_fuselages wing_bending_material_factor wing_ultimate_load_factor wing_span wing_composite_fraction wing_aeroelastic_tailoring_factor wing_var_sweep_mass_penalty wing_load_fraction wing_sweep design_gross_mass wing_eng_pod_inertia_factor wing_shear_control_mass wing_shear_control_mass_scaler wing_misc_mass wing_misc_mass_scaler : ℝ) : ℝ :=
  (((fact1_2 fuselage_num_fuselages wing_bending_material_factor wing_ultimate_load_factor
    wing_span wing_composite_fraction wing_aeroelastic_tailoring_factor
    wing_var_sweep_mass_penalty wing_load_fraction wing_sweep design_gross_mass
    wing_eng_pod_inertia_factor wing_shear_control_mass wing_shear_control_mass_scaler
    wing_misc_mass wing_misc_mass_scaler) * (fact2_2 fuselage_num_fuselages
    wing_bending_material_factor wing_ultimate_load_factor wing_span wing_composite_fraction
    wing_aeroelastic_tailoring_factor wing_var_sweep_mass_penalty wing_load_fraction
    wing_sweep)) - (wing_shear_control_mass / wing_shear_control_mass_scaler)) - (wing_misc_mass
    / wing_misc_mass_scaler)

/-- Partial of `wing_bending_material_mass` with respect to `wing_bending_material_factor` as set by `WingBendingMass`, aviary/subsystems/mass/flops_based/wing_common.py:188 -/
noncomputable def J_wing_bending_material_mass__wing_bending_material_factor (fuselage_num_fuselages wing_bending_material_factor wing_ultimate_load_factor wing_span wing_composite_fraction wing_aeroelastic_tailoring_factor wing_var_sweep_mass_penalty wing_load_fraction wing_sweep design_gross_mass wing_eng_pod_inertia_factor wing_bending_material_mass_scaler wing_shear_control_mass wing_shear_control_mass_scaler wing_misc_mass wing_misc_mass_scaler : ℝ) : ℝ :=
  (dbend_w1nir fuselage_num_fuselages wing_bending_material_factor wing_ultimate_load_factor
    wing_span wing_composite_fraction wing_aeroelastic_tailoring_factor
    wing_var_sweep_mass_penalty wing_load_fraction wing_sweep design_gross_mass
    wing_eng_pod_inertia_factor wing_bending_material_mass_scaler wing_shear_control_mass
    wing_shear_control_mass_scaler wing_misc_mass wing_misc_mass_scaler) * (dw1nir_bt
    fuselage_num_fuselages wing_ultimate_load_factor wing_span wing_composite_fraction
    wing_aeroelastic_tailoring_factor wing_var_sweep_mass_penalty wing_load_fraction wing_sweep)

/-- Partial of `wing_bending_material_mass` with respect to `wing_ultimate_load_factor` as set by `WingBendingMass`, aviary/subsystems/mass/flops_based/wing_common.py:192 -/
noncomputable def J_wing_bending_material_mass__wing_ultimate_load_factor (fuselage_num_fuselages wing_bending_material_factor wing_ultimate_load_factor wing_span wing_composite_fraction wing_aeroelastic_tailoring_factor wing_var_sweep_mass_penalty wing_load_fraction wing_sweep design_gross_mass wing_eng_pod_inertia_factor wing_bending_material_mass_scaler wing_shear_control_mass wing_shear_control_mass_scaler wing_misc_mass wing_misc_mass_scaler : ℝ) : ℝ :=
  (dbend_w1nir fuselage_num_fuselages wing_bending_material_factor wing_ultimate_load_factor
    wing_span wing_composite_fraction wing_aeroelastic_tailoring_factor
    wing_var_sweep_mass_penalty wing_load_fraction wing_sweep design_gross_mass
    wing_eng_pod_inertia_factor wing_bending_material_mass_scaler wing_shear_control_mass
    wing_shear_control_mass_scaler wing_misc_mass wing_misc_mass_scaler) * (dw1nir_ulf
    fuselage_num_fuselages wing_bending_material_factor wing_span wing_composite_fraction
    wing_aeroelastic_tailoring_factor wing_var_sweep_mass_penalty wing_load_fraction wing_sweep)

/-- Partial of `wing_bending_material_mass` with respect to `wing_load_fraction` as set by `WingBendingMass`, aviary/subsystems/mass/flops_based/wing_common.py:196 -/
noncomputable def J_wing_bending_material_mass__wing_load_fraction (fuselage_num_fuselages wing_bending_material_factor wing_ultimate_load_factor wing_span wing_composite_fraction wing_aeroelastic_tailoring_factor wing_var_sweep_mass_penalty wing_load_fraction wing_sweep design_gross_mass wing_eng_pod_inertia_factor wing_bending_material_mass_scaler wing_shear_control_mass wing_shear_control_mass_scaler wing_misc_mass wing_misc_mass_scaler : ℝ) : ℝ :=
  (dbend_w1nir fuselage_num_fuselages wing_bending_material_factor wing_ultimate_load_factor
    wing_span wing_composite_fraction wing_aeroelastic_tailoring_factor
    wing_var_sweep_mass_penalty wing_load_fraction wing_sweep design_gross_mass
    wing_eng_pod_inertia_factor wing_bending_material_mass_scaler wing_shear_control_mass
    wing_shear_control_mass_scaler wing_misc_mass wing_misc_mass_scaler) * (dw1nir_pctl
    fuselage_num_fuselages wing_bending_material_factor wing_ultimate_load_factor wing_span
    wing_composite_fraction wing_aeroelastic_tailoring_factor wing_var_sweep_mass_penalty
    wing_sweep)

/-- Partial of `wing_bending_material_mass` with respect to `wing_composite_fraction` as set by `WingBendingMass`, aviary/subsystems/mass/flops_based/wing_common.py:200 -/
noncomputable def J_wing_bending_material_mass__wing_composite_fraction (fuselage_num_fuselages wing_bending_material_factor wing_ultimate_load_factor wing_span wing_composite_fraction wing_aeroelastic_tailoring_factor wing_var_sweep_mass_penalty wing_load_fraction wing_sweep design_gross_mass wing_eng_pod_inertia_factor wing_bending_material_mass_scaler wing_shear_control_mass wing_shear_control_mass_scaler wing_misc_mass wing_misc_mass_scaler : ℝ) : ℝ :=
  (dbend_w1nir fuselage_num_fuselages wing_bending_material_factor wing_ultimate_load_factor
    wing_span wing_composite_fraction wing_aeroelastic_tailoring_factor
    wing_var_sweep_mass_penalty wing_load_fraction wing_sweep design_gross_mass
    wing_eng_pod_inertia_factor wing_bending_material_mass_scaler wing_shear_control_mass
    wing_shear_control_mass_scaler wing_misc_mass wing_misc_mass_scaler) * (dw1nir_compfrac
    fuselage_num_fuselages wing_bending_material_factor wing_ultimate_load_factor wing_span
    wing_aeroelastic_tailoring_factor wing_var_sweep_mass_penalty wing_load_fraction wing_sweep)

/-- Partial of `wing_bending_material_mass` with respect to `wing_aeroelastic_tailoring_factor` as set by `WingBendingMass`, aviary/subsystems/mass/flops_based/wing_common.py:204 -/
noncomputable def J_wing_bending_material_mass__wing_aeroelastic_tailoring_factor (fuselage_num_fuselages wing_bending_material_factor wing_ultimate_load_factor wing_span wing_composite_fraction wing_aeroelastic_tailoring_factor wing_var_sweep_mass_penalty wing_load_fraction wing_sweep design_gross_mass wing_eng_pod_inertia_factor wing_bending_material_mass_scaler wing_shear_control_mass wing_shear_control_mass_scaler wing_misc_mass wing_misc_mass_scaler : ℝ) : ℝ :=
  (dbend_w1nir fuselage_num_fuselages wing_bending_material_factor wing_ultimate_load_factor
    wing_span wing_composite_fraction wing_aeroelastic_tailoring_factor
    wing_var_sweep_mass_penalty wing_load_fraction wing_sweep design_gross_mass
    wing_eng_pod_inertia_factor wing_bending_material_mass_scaler wing_shear_control_mass
    wing_shear_control_mass_scaler wing_misc_mass wing_misc_mass_scaler) * (dw1nir_faert
    fuselage_num_fuselages wing_bending_material_factor wing_ultimate_load_factor wing_span
    wing_composite_fraction wing_var_sweep_mass_penalty wing_load_fraction wing_sweep)

/-- Partial of `wing_bending_material_mass` with respect to `wing_var_sweep_mass_penalty` as set by `WingBendingMass`, aviary/subsystems/mass/flops_based/wing_common.py:209 -/
noncomputable def J_wing_bending_material_mass__wing_var_sweep_mass_penalty (fuselage_num_fuselages wing_bending_material_factor wing_ultimate_load_factor wing_span wing_composite_fraction wing_aeroelastic_tailoring_factor wing_var_sweep_mass_penalty wing_load_fraction wing_sweep design_gross_mass wing_eng_pod_inertia_factor wing_bending_material_mass_scaler wing_shear_control_mass wing_shear_control_mass_scaler wing_misc_mass wing_misc_mass_scaler : ℝ) : ℝ :=
  (dbend_w1nir fuselage_num_fuselages wing_bending_material_factor wing_ultimate_load_factor
    wing_span wing_composite_fraction wing_aeroelastic_tailoring_factor
    wing_var_sweep_mass_penalty wing_load_fraction wing_sweep design_gross_mass
    wing_eng_pod_inertia_factor wing_bending_material_mass_scaler wing_shear_control_mass
    wing_shear_control_mass_scaler wing_misc_mass wing_misc_mass_scaler) * (dw1nir_varswp
    fuselage_num_fuselages wing_bending_material_factor wing_ultimate_load_factor wing_span
    wing_composite_fraction wing_aeroelastic_tailoring_factor wing_load_fraction wing_sweep)

/-- Partial of `wing_bending_material_mass` with respect to `wing_sweep` as set by `WingBendingMass`, aviary/subsystems/mass/flops_based/wing_common.py:213 -/
noncomputable def J_wing_bending_material_mass__wing_sweep (fuselage_num_fuselages wing_bending_material_factor wing_ultimate_load_factor wing_span wing_composite_fraction wing_aeroelastic_tailoring_factor wing_var_sweep_mass_penalty wing_load_fraction wing_sweep design_gross_mass wing_eng_pod_inertia_factor wing_bending_material_mass_scaler wing_shear_control_mass wing_shear_control_mass_scaler wing_misc_mass wing_misc_mass_scaler : ℝ) : ℝ :=
  (dbend_w1nir fuselage_num_fuselages wing_bending_material_factor wing_ultimate_load_factor
    wing_span wing_composite_fraction wing_aeroelastic_tailoring_factor
    wing_var_sweep_mass_penalty wing_load_fraction wing_sweep design_gross_mass
    wing_eng_pod_inertia_factor wing_bending_material_mass_scaler wing_shear_control_mass
    wing_shear_control_mass_scaler wing_misc_mass wing_misc_mass_scaler) * (dw1nir_sweep
    fuselage_num_fuselages wing_bending_material_factor wing_ultimate_load_factor wing_span
    wing_composite_fraction wing_aeroelastic_tailoring_factor wing_var_sweep_mass_penalty
    wing_load_fraction wing_sweep)

/-- Partial of `wing_bending_material_mass` with respect to `wing_span` as set by `WingBendingMass`, aviary/subsystems/mass/flops_based/wing_common.py:217 -/
noncomputable def J_wing_bending_material_mass__wing_span (fuselage_num_fuselages wing_bending_material_factor wing_ultimate_load_factor wing_span wing_composite_fraction wing_aeroelastic_tailoring_factor wing_var_sweep_mass_penalty wing_load_fraction wing_sweep design_gross_mass wing_eng_pod_inertia_factor wing_bending_material_mass_scaler wing_shear_control_mass wing_shear_control_mass_scaler wing_misc_mass wing_misc_mass_scaler : ℝ) : ℝ :=
  (dbend_w1nir fuselage_num_fuselages wing_bending_material_factor wing_ultimate_load_factor
    wing_span wing_composite_fraction wing_aeroelastic_tailoring_factor
    wing_var_sweep_mass_penalty wing_load_fraction wing_sweep design_gross_mass
    wing_eng_pod_inertia_factor wing_bending_material_mass_scaler wing_shear_control_mass
    wing_shear_control_mass_scaler wing_misc_mass wing_misc_mass_scaler) * (dw1nir_span
    fuselage_num_fuselages wing_bending_material_factor wing_ultimate_load_factor wing_span
    wing_composite_fraction wing_aeroelastic_tailoring_factor wing_var_sweep_mass_penalty
    wing_load_fraction wing_sweep)

theorem d_wing_bending_material_mass__design_gross_mass (fuselage_num_fuselages
    wing_bending_material_factor wing_ultimate_load_factor wing_span wing_composite_fraction
    wing_aeroelastic_tailoring_factor wing_var_sweep_mass_penalty wing_load_fraction wing_sweep
    design_gross_mass wing_eng_pod_inertia_factor wing_bending_material_mass_scaler
    wing_shear_control_mass wing_shear_control_mass_scaler wing_misc_mass wing_misc_mass_scaler :
    ℝ) (h0 : 0 < wing_span) (h1 : cos ((π / 180) * wing_sweep) ≠ 0) (h2 : 0 <
    wing_shear_control_mass_scaler) (h3 : 0 < wing_misc_mass_scaler) (h4 : 0 <
    wing_bending_material_factor) (h5 : 0 < wing_ultimate_load_factor) (h6 : 0 < 1 - ((2 / 5) *
    wing_composite_fraction)) (h7 : 0 < 1 - ((1 / 10) * wing_aeroelastic_tailoring_factor)) (h8 :
    0 < wing_var_sweep_mass_penalty) (h9 : 0 < ((24 / 25) / (cos ((π / 180) * wing_sweep))) - 1)
    (h10 : 0 < wing_load_fraction) (h11 : cos ((π / 180) * wing_sweep) ≠ 0) (h12 : 0 < ((24 / 25)
    / (cos ((π / 180) * wing_sweep))) - 1) :
    HasDerivAt (fun t => out_wing_bending_material_mass fuselage_num_fuselages wing_bending_material_factor wing_ultimate_load_factor wing_span wing_composite_fraction wing_aeroelastic_tailoring_factor wing_var_sweep_mass_penalty wing_load_fraction wing_sweep t wing_eng_pod_inertia_factor wing_bending_material_mass_scaler wing_shear_control_mass wing_shear_control_mass_scaler wing_misc_mass wing_misc_mass_scaler) (J_wing_bending_material_mass__design_gross_mass fuselage_num_fuselages wing_bending_material_factor wing_ultimate_load_factor wing_span wing_composite_fraction wing_aeroelastic_tailoring_factor wing_var_sweep_mass_penalty wing_load_fraction wing_sweep wing_eng_pod_inertia_factor wing_bending_material_mass_scaler) design_gross_mass := by
  simp only [out_wing_bending_material_mass, J_wing_bending_material_mass__design_gross_mass, fact2_2, w1nir_2, vfact_2, term, deg2rad, fact3, fact2, fact1, fact0, w3, w2, w1nir, vfact, cayf]
  try split_ifs
  all_goals (apply hasDerivAt_of_eq; on_goal 1 => (repeat' comp_step))
  all_goals try comp_side
  all_goals try simp (disch := first | assumption | positivity) only [div_mul_eq_div_div, div_half, inv_half]
  all_goals try split_ifs
  all_goals try (exfalso; linarith)
  all_goals try simp only [mul_zero, zero_mul, add_zero, zero_add, sub_zero, zero_sub, mul_one, one_mul]
  all_goals try push_cast
  all_goals comp_eq

theorem d_wing_bending_material_mass__wing_eng_pod_inertia_factor (fuselage_num_fuselages
    wing_bending_material_factor wing_ultimate_load_factor wing_span wing_composite_fraction
    wing_aeroelastic_tailoring_factor wing_var_sweep_mass_penalty wing_load_fraction wing_sweep
    design_gross_mass wing_eng_pod_inertia_factor wing_bending_material_mass_scaler
    wing_shear_control_mass wing_shear_control_mass_scaler wing_misc_mass wing_misc_mass_scaler :
    ℝ) (h0 : 0 < wing_span) (h1 : cos ((π / 180) * wing_sweep) ≠ 0) (h2 : 0 <
    wing_shear_control_mass_scaler) (h3 : 0 < wing_misc_mass_scaler) (h4 : 0 <
    wing_bending_material_factor) (h5 : 0 < wing_ultimate_load_factor) (h6 : 0 < 1 - ((2 / 5) *
    wing_composite_fraction)) (h7 : 0 < 1 - ((1 / 10) * wing_aeroelastic_tailoring_factor)) (h8 :
    0 < wing_var_sweep_mass_penalty) (h9 : 0 < ((24 / 25) / (cos ((π / 180) * wing_sweep))) - 1)
    (h10 : 0 < wing_load_fraction) (h11 : cos ((π / 180) * wing_sweep) ≠ 0) (h12 : 0 < ((24 / 25)
    / (cos ((π / 180) * wing_sweep))) - 1) :
    HasDerivAt (fun t => out_wing_bending_material_mass fuselage_num_fuselages wing_bending_material_factor wing_ultimate_load_factor wing_span wing_composite_fraction wing_aeroelastic_tailoring_factor wing_var_sweep_mass_penalty wing_load_fraction wing_sweep design_gross_mass t wing_bending_material_mass_scaler wing_shear_control_mass wing_shear_control_mass_scaler wing_misc_mass wing_misc_mass_scaler) (J_wing_bending_material_mass__wing_eng_pod_inertia_factor fuselage_num_fuselages wing_bending_material_factor wing_ultimate_load_factor wing_span wing_composite_fraction wing_aeroelastic_tailoring_factor wing_var_sweep_mass_penalty wing_load_fraction wing_sweep design_gross_mass wing_bending_material_mass_scaler) wing_eng_pod_inertia_factor := by
  simp only [out_wing_bending_material_mass, J_wing_bending_material_mass__wing_eng_pod_inertia_factor, fact2_2, w1nir_2, vfact_2, term, deg2rad, fact3, fact2, fact1, fact0, w3, w2, w1nir, vfact, cayf]
  try split_ifs
  all_goals (apply hasDerivAt_of_eq; on_goal 1 => (repeat' comp_step))
  all_goals try comp_side
  all_goals try simp (disch := first | assumption | positivity) only [div_mul_eq_div_div, div_half, inv_half]
  all_goals try split_ifs
  all_goals try (exfalso; linarith)
  all_goals try simp only [mul_zero, zero_mul, add_zero, zero_add, sub_zero, zero_sub, mul_one, one_mul]
  all_goals try push_cast
  all_goals comp_eq

theorem d_wing_bending_material_mass__wing_bending_material_mass_scaler (fuselage_num_fuselages
    wing_bending_material_factor wing_ultimate_load_factor wing_span wing_composite_fraction
    wing_aeroelastic_tailoring_factor wing_var_sweep_mass_penalty wing_load_fraction wing_sweep
    design_gross_mass wing_eng_pod_inertia_factor wing_bending_material_mass_scaler
    wing_shear_control_mass wing_shear_control_mass_scaler wing_misc_mass wing_misc_mass_scaler :
    ℝ) (h0 : 0 < wing_span) (h1 : cos ((π / 180) * wing_sweep) ≠ 0) (h2 : 0 <
    wing_shear_control_mass_scaler) (h3 : 0 < wing_misc_mass_scaler) (h4 : 0 <
    wing_bending_material_factor) (h5 : 0 < wing_ultimate_load_factor) (h6 : 0 < 1 - ((2 / 5) *
    wing_composite_fraction)) (h7 : 0 < 1 - ((1 / 10) * wing_aeroelastic_tailoring_factor)) (h8 :
    0 < wing_var_sweep_mass_penalty) (h9 : 0 < ((24 / 25) / (cos ((π / 180) * wing_sweep))) - 1)
    (h10 : 0 < wing_load_fraction) (h11 : cos ((π / 180) * wing_sweep) ≠ 0) (h12 : 0 < ((24 / 25)
    / (cos ((π / 180) * wing_sweep))) - 1) :
    HasDerivAt (fun t => out_wing_bending_material_mass fuselage_num_fuselages wing_bending_material_factor wing_ultimate_load_factor wing_span wing_composite_fraction wing_aeroelastic_tailoring_factor wing_var_sweep_mass_penalty wing_load_fraction wing_sweep design_gross_mass wing_eng_pod_inertia_factor t wing_shear_control_mass wing_shear_control_mass_scaler wing_misc_mass wing_misc_mass_scaler) (J_wing_bending_material_mass__wing_bending_material_mass_scaler fuselage_num_fuselages wing_bending_material_factor wing_ultimate_load_factor wing_span wing_composite_fraction wing_aeroelastic_tailoring_factor wing_var_sweep_mass_penalty wing_load_fraction wing_sweep design_gross_mass wing_eng_pod_inertia_factor wing_shear_control_mass wing_shear_control_mass_scaler wing_misc_mass wing_misc_mass_scaler) wing_bending_material_mass_scaler := by
  simp only [out_wing_bending_material_mass, J_wing_bending_material_mass__wing_bending_material_mass_scaler, fact2_2, fact1_2, w1nir_2, vfact_2, term, deg2rad, fact3, fact2, fact1, fact0, w3, w2, w1nir, vfact, cayf]
  try split_ifs
  all_goals (apply hasDerivAt_of_eq; on_goal 1 => (repeat' comp_step))
  all_goals try comp_side
  all_goals try simp (disch := first | assumption | positivity) only [div_mul_eq_div_div, div_half, inv_half]
  all_goals try split_ifs
  all_goals try (exfalso; linarith)
  all_goals try simp only [mul_zero, zero_mul, add_zero, zero_add, sub_zero, zero_sub, mul_one, one_mul]
  all_goals try push_cast
  all_goals comp_eq

theorem d_wing_bending_material_mass__wing_shear_control_mass (fuselage_num_fuselages
    wing_bending_material_factor wing_ultimate_load_factor wing_span wing_composite_fraction
    wing_aeroelastic_tailoring_factor wing_var_sweep_mass_penalty wing_load_fraction wing_sweep
    design_gross_mass wing_eng_pod_inertia_factor wing_bending_material_mass_scaler
    wing_shear_control_mass wing_shear_control_mass_scaler wing_misc_mass wing_misc_mass_scaler :
    ℝ) (h0 : 0 < wing_span) (h1 : cos ((π / 180) * wing_sweep) ≠ 0) (h2 : 0 <
    wing_shear_control_mass_scaler) (h3 : 0 < wing_misc_mass_scaler) (h4 : 0 <
    wing_bending_material_factor) (h5 : 0 < wing_ultimate_load_factor) (h6 : 0 < 1 - ((2 / 5) *
    wing_composite_fraction)) (h7 : 0 < 1 - ((1 / 10) * wing_aeroelastic_tailoring_factor)) (h8 :
    0 < wing_var_sweep_mass_penalty) (h9 : 0 < ((24 / 25) / (cos ((π / 180) * wing_sweep))) - 1)
    (h10 : 0 < wing_load_fraction) (h11 : cos ((π / 180) * wing_sweep) ≠ 0) (h12 : 0 < ((24 / 25)
    / (cos ((π / 180) * wing_sweep))) - 1) :
    HasDerivAt (fun t => out_wing_bending_material_mass fuselage_num_fuselages wing_bending_material_factor wing_ultimate_load_factor wing_span wing_composite_fraction wing_aeroelastic_tailoring_factor wing_var_sweep_mass_penalty wing_load_fraction wing_sweep design_gross_mass wing_eng_pod_inertia_factor wing_bending_material_mass_scaler t wing_shear_control_mass_scaler wing_misc_mass wing_misc_mass_scaler) (J_wing_bending_material_mass__wing_shear_control_mass fuselage_num_fuselages wing_bending_material_factor wing_ultimate_load_factor wing_span wing_composite_fraction wing_aeroelastic_tailoring_factor wing_var_sweep_mass_penalty wing_load_fraction wing_sweep wing_bending_material_mass_scaler wing_shear_control_mass_scaler) wing_shear_control_mass := by
  simp only [out_wing_bending_material_mass, J_wing_bending_material_mass__wing_shear_control_mass, fact2_2, w1nir_2, vfact_2, term, deg2rad, fact3, fact2, fact1, fact0, w3, w2, w1nir, vfact, cayf]
  try split_ifs
  all_goals (apply hasDerivAt_of_eq; on_goal 1 => (repeat' comp_step))
  all_goals try comp_side
  all_goals try simp (disch := first | assumption | positivity) only [div_mul_eq_div_div, div_half, inv_half]
  all_goals try split_ifs
  all_goals try (exfalso; linarith)
  all_goals try simp only [mul_zero, zero_mul, add_zero, zero_add, sub_zero, zero_sub, mul_one, one_mul]
  all_goals try push_cast
  all_goals comp_eq

theorem d_wing_bending_material_mass__wing_shear_control_mass_scaler (fuselage_num_fuselages
    wing_bending_material_factor wing_ultimate_load_factor wing_span wing_composite_fraction
    wing_aeroelastic_tailoring_factor wing_var_sweep_mass_penalty wing_load_fraction wing_sweep
    design_gross_mass wing_eng_pod_inertia_factor wing_bending_material_mass_scaler
    wing_shear_control_mass wing_shear_control_mass_scaler wing_misc_mass wing_misc_mass_scaler :
    ℝ) (h0 : 0 < wing_span) (h1 : cos ((π / 180) * wing_sweep) ≠ 0) (h2 : 0 <
    wing_shear_control_mass_scaler) (h3 : 0 < wing_misc_mass_scaler) (h4 : 0 <
    wing_bending_material_factor) (h5 : 0 < wing_ultimate_load_factor) (h6 : 0 < 1 - ((2 / 5) *
    wing_composite_fraction)) (h7 : 0 < 1 - ((1 / 10) * wing_aeroelastic_tailoring_factor)) (h8 :
    0 < wing_var_sweep_mass_penalty) (h9 : 0 < ((24 / 25) / (cos ((π / 180) * wing_sweep))) - 1)
    (h10 : 0 < wing_load_fraction) (h11 : cos ((π / 180) * wing_sweep) ≠ 0) (h12 : 0 < ((24 / 25)
    / (cos ((π / 180) * wing_sweep))) - 1) :
    HasDerivAt (fun t => out_wing_bending_material_mass fuselage_num_fuselages wing_bending_material_factor wing_ultimate_load_factor wing_span wing_composite_fraction wing_aeroelastic_tailoring_factor wing_var_sweep_mass_penalty wing_load_fraction wing_sweep design_gross_mass wing_eng_pod_inertia_factor wing_bending_material_mass_scaler wing_shear_control_mass t wing_misc_mass wing_misc_mass_scaler) (J_wing_bending_material_mass__wing_shear_control_mass_scaler fuselage_num_fuselages wing_bending_material_factor wing_ultimate_load_factor wing_span wing_composite_fraction wing_aeroelastic_tailoring_factor wing_var_sweep_mass_penalty wing_load_fraction wing_sweep wing_bending_material_mass_scaler wing_shear_control_mass wing_shear_control_mass_scaler) wing_shear_control_mass_scaler := by
  simp only [out_wing_bending_material_mass, J_wing_bending_material_mass__wing_shear_control_mass_scaler, fact2_2, w1nir_2, vfact_2, term, deg2rad, fact3, fact2, fact1, fact0, w3, w2, w1nir, vfact, cayf]
  try split_ifs
  all_goals (apply hasDerivAt_of_eq; on_goal 1 => (repeat' comp_step))
  all_goals try comp_side
  all_goals try simp (disch := first | assumption | positivity) only [div_mul_eq_div_div, div_half, inv_half]
  all_goals try split_ifs
  all_goals try (exfalso; linarith)
  all_goals try simp only [mul_zero, zero_mul, add_zero, zero_add, sub_zero, zero_sub, mul_one, one_mul]
  all_goals try push_cast
  all_goals comp_eq

theorem d_wing_bending_material_mass__wing_misc_mass (fuselage_num_fuselages
    wing_bending_material_factor wing_ultimate_load_factor wing_span wing_composite_fraction
    wing_aeroelastic_tailoring_factor wing_var_sweep_mass_penalty wing_load_fraction wing_sweep
    design_gross_mass wing_eng_pod_inertia_factor wing_bending_material_mass_scaler
    wing_shear_control_mass wing_shear_control_mass_scaler wing_misc_mass wing_misc_mass_scaler :
    ℝ) (h0 : 0 < wing_span) (h1 : cos ((π / 180) * wing_sweep) ≠ 0) (h2 : 0 <
    wing_shear_control_mass_scaler) (h3 : 0 < wing_misc_mass_scaler) (h4 : 0 <
    wing_bending_material_factor) (h5 : 0 < wing_ultimate_load_factor) (h6 : 0 < 1 - ((2 / 5) *
    wing_composite_fraction)) (h7 : 0 < 1 - ((1 / 10) * wing_aeroelastic_tailoring_factor)) (h8 :
    0 < wing_var_sweep_mass_penalty) (h9 : 0 < ((24 / 25) / (cos ((π / 180) * wing_sweep))) - 1)
    (h10 : 0 < wing_load_fraction) (h11 : cos ((π / 180) * wing_sweep) ≠ 0) (h12 : 0 < ((24 / 25)
    / (cos ((π / 180) * wing_sweep))) - 1) :
    HasDerivAt (fun t => out_wing_bending_material_mass fuselage_num_fuselages wing_bending_material_factor wing_ultimate_load_factor wing_span wing_composite_fraction wing_aeroelastic_tailoring_factor wing_var_sweep_mass_penalty wing_load_fraction wing_sweep design_gross_mass wing_eng_pod_inertia_factor wing_bending_material_mass_scaler wing_shear_control_mass wing_shear_control_mass_scaler t wing_misc_mass_scaler) (J_wing_bending_material_mass__wing_misc_mass fuselage_num_fuselages wing_bending_material_factor wing_ultimate_load_factor wing_span wing_composite_fraction wing_aeroelastic_tailoring_factor wing_var_sweep_mass_penalty wing_load_fraction wing_sweep wing_bending_material_mass_scaler wing_misc_mass_scaler) wing_misc_mass := by
  simp only [out_wing_bending_material_mass, J_wing_bending_material_mass__wing_misc_mass, fact2_2, w1nir_2, vfact_2, term, deg2rad, fact3, fact2, fact1, fact0, w3, w2, w1nir, vfact, cayf]
  try split_ifs
  all_goals (apply hasDerivAt_of_eq; on_goal 1 => (repeat' comp_step))
  all_goals try comp_side
  all_goals try simp (disch := first | assumption | positivity) only [div_mul_eq_div_div, div_half, inv_half]
  all_goals try split_ifs
  all_goals try (exfalso; linarith)
  all_goals try simp only [mul_zero, zero_mul, add_zero, zero_add, sub_zero, zero_sub, mul_one, one_mul]
  all_goals try push_cast
  all_goals comp_eq

theorem d_wing_bending_material_mass__wing_misc_mass_scaler (fuselage_num_fuselages
    wing_bending_material_factor wing_ultimate_load_factor wing_span wing_composite_fraction
    wing_aeroelastic_tailoring_factor wing_var_sweep_mass_penalty wing_load_fraction wing_sweep
    design_gross_mass wing_eng_pod_inertia_factor wing_bending_material_mass_scaler
    wing_shear_control_mass wing_shear_control_mass_scaler wing_misc_mass wing_misc_mass_scaler :
    ℝ) (h0 : 0 < wing_span) (h1 : cos ((π / 180) * wing_sweep) ≠ 0) (h2 : 0 <
    wing_shear_control_mass_scaler) (h3 : 0 < wing_misc_mass_scaler) (h4 : 0 <
    wing_bending_material_factor) (h5 : 0 < wing_ultimate_load_factor) (h6 : 0 < 1 - ((2 / 5) *
    wing_composite_fraction)) (h7 : 0 < 1 - ((1 / 10) * wing_aeroelastic_tailoring_factor)) (h8 :
    0 < wing_var_sweep_mass_penalty) (h9 : 0 < ((24 / 25) / (cos ((π / 180) * wing_sweep))) - 1)
    (h10 : 0 < wing_load_fraction) (h11 : cos ((π / 180) * wing_sweep) ≠ 0) (h12 : 0 < ((24 / 25)
    / (cos ((π / 180) * wing_sweep))) - 1) :
    HasDerivAt (fun t => out_wing_bending_material_mass fuselage_num_fuselages wing_bending_material_factor wing_ultimate_load_factor wing_span wing_composite_fraction wing_aeroelastic_tailoring_factor wing_var_sweep_mass_penalty wing_load_fraction wing_sweep design_gross_mass wing_eng_pod_inertia_factor wing_bending_material_mass_scaler wing_shear_control_mass wing_shear_control_mass_scaler wing_misc_mass t) (J_wing_bending_material_mass__wing_misc_mass_scaler fuselage_num_fuselages wing_bending_material_factor wing_ultimate_load_factor wing_span wing_composite_fraction wing_aeroelastic_tailoring_factor wing_var_sweep_mass_penalty wing_load_fraction wing_sweep wing_bending_material_mass_scaler wing_misc_mass wing_misc_mass_scaler) wing_misc_mass_scaler := by
  simp only [out_wing_bending_material_mass, J_wing_bending_material_mass__wing_misc_mass_scaler, fact2_2, w1nir_2, vfact_2, term, deg2rad, fact3, fact2, fact1, fact0, w3, w2, w1nir, vfact, cayf]
  try split_ifs
  all_goals (apply hasDerivAt_of_eq; on_goal 1 => (repeat' comp_step))
  all_goals try comp_side
  all_goals try simp (disch := first | assumption | positivity) only [div_mul_eq_div_div, div_half, inv_half]
  all_goals try split_ifs
  all_goals try (exfalso; linarith)
  all_goals try simp only [mul_zero, zero_mul, add_zero, zero_add, sub_zero, zero_sub, mul_one, one_mul]
  all_goals try push_cast
  all_goals comp_eq

/-- Partial derivatives of `WingBendingMass` that are proved correct (the rest is listed in the header). -/
theorem partials_partial (fuselage_num_fuselages wing_bending_material_factor
    wing_ultimate_load_factor wing_span wing_composite_fraction wing_aeroelastic_tailoring_factor
    wing_var_sweep_mass_penalty wing_load_fraction wing_sweep design_gross_mass
    wing_eng_pod_inertia_factor wing_bending_material_mass_scaler wing_shear_control_mass
    wing_shear_control_mass_scaler wing_misc_mass wing_misc_mass_scaler : ℝ) (h0 : 0 < wing_span)
    (h1 : cos ((π / 180) * wing_sweep) ≠ 0) (h2 : 0 < wing_shear_control_mass_scaler) (h3 : 0 <
    wing_misc_mass_scaler) (h4 : 0 < wing_bending_material_factor) (h5 : 0 <
    wing_ultimate_load_factor) (h6 : 0 < 1 - ((2 / 5) * wing_composite_fraction)) (h7 : 0 < 1 -
    ((1 / 10) * wing_aeroelastic_tailoring_factor)) (h8 : 0 < wing_var_sweep_mass_penalty) (h9 : 0
    < ((24 / 25) / (cos ((π / 180) * wing_sweep))) - 1) (h10 : 0 < wing_load_fraction) :
    HasDerivAt (fun t => out_wing_bending_material_mass fuselage_num_fuselages
      wing_bending_material_factor wing_ultimate_load_factor wing_span wing_composite_fraction
      wing_aeroelastic_tailoring_factor wing_var_sweep_mass_penalty wing_load_fraction wing_sweep
      t wing_eng_pod_inertia_factor wing_bending_material_mass_scaler wing_shear_control_mass
      wing_shear_control_mass_scaler wing_misc_mass wing_misc_mass_scaler)
      (J_wing_bending_material_mass__design_gross_mass fuselage_num_fuselages
      wing_bending_material_factor wing_ultimate_load_factor wing_span wing_composite_fraction
      wing_aeroelastic_tailoring_factor wing_var_sweep_mass_penalty wing_load_fraction wing_sweep
      wing_eng_pod_inertia_factor wing_bending_material_mass_scaler) design_gross_mass ∧
    HasDerivAt (fun t => out_wing_bending_material_mass fuselage_num_fuselages
      wing_bending_material_factor wing_ultimate_load_factor wing_span wing_composite_fraction
      wing_aeroelastic_tailoring_factor wing_var_sweep_mass_penalty wing_load_fraction wing_sweep
      design_gross_mass t wing_bending_material_mass_scaler wing_shear_control_mass
      wing_shear_control_mass_scaler wing_misc_mass wing_misc_mass_scaler)
      (J_wing_bending_material_mass__wing_eng_pod_inertia_factor fuselage_num_fuselages
      wing_bending_material_factor wing_ultimate_load_factor wing_span wing_composite_fraction
      wing_aeroelastic_tailoring_factor wing_var_sweep_mass_penalty wing_load_fraction wing_sweep
      design_gross_mass wing_bending_material_mass_scaler) wing_eng_pod_inertia_factor ∧
    HasDerivAt (fun t => out_wing_bending_material_mass fuselage_num_fuselages
      wing_bending_material_factor wing_ultimate_load_factor wing_span wing_composite_fraction
      wing_aeroelastic_tailoring_factor wing_var_sweep_mass_penalty wing_load_fraction wing_sweep
      design_gross_mass wing_eng_pod_inertia_factor t wing_shear_control_mass
      wing_shear_control_mass_scaler wing_misc_mass wing_misc_mass_scaler)
      (J_wing_bending_material_mass__wing_bending_material_mass_scaler fuselage_num_fuselages
      wing_bending_material_factor wing_ultimate_load_factor wing_span wing_composite_fraction
      wing_aeroelastic_tailoring_factor wing_var_sweep_mass_penalty wing_load_fraction wing_sweep
      design_gross_mass wing_eng_pod_inertia_factor wing_shear_control_mass
      wing_shear_control_mass_scaler wing_misc_mass wing_misc_mass_scaler)
      wing_bending_material_mass_scaler ∧
    HasDerivAt (fun t => out_wing_bending_material_mass fuselage_num_fuselages
      wing_bending_material_factor wing_ultimate_load_factor wing_span wing_composite_fraction
      wing_aeroelastic_tailoring_factor wing_var_sweep_mass_penalty wing_load_fraction wing_sweep
      design_gross_mass wing_eng_pod_inertia_factor wing_bending_material_mass_scaler t
      wing_shear_control_mass_scaler wing_misc_mass wing_misc_mass_scaler)
      (J_wing_bending_material_mass__wing_shear_control_mass fuselage_num_fuselages
      wing_bending_material_factor wing_ultimate_load_factor wing_span wing_composite_fraction
      wing_aeroelastic_tailoring_factor wing_var_sweep_mass_penalty wing_load_fraction wing_sweep
      wing_bending_material_mass_scaler wing_shear_control_mass_scaler) wing_shear_control_mass ∧
    HasDerivAt (fun t => out_wing_bending_material_mass fuselage_num_fuselages
      wing_bending_material_factor wing_ultimate_load_factor wing_span wing_composite_fraction
      wing_aeroelastic_tailoring_factor wing_var_sweep_mass_penalty wing_load_fraction wing_sweep
      design_gross_mass wing_eng_pod_inertia_factor wing_bending_material_mass_scaler
      wing_shear_control_mass t wing_misc_mass wing_misc_mass_scaler)
      (J_wing_bending_material_mass__wing_shear_control_mass_scaler fuselage_num_fuselages
      wing_bending_material_factor wing_ultimate_load_factor wing_span wing_composite_fraction
      wing_aeroelastic_tailoring_factor wing_var_sweep_mass_penalty wing_load_fraction wing_sweep
      wing_bending_material_mass_scaler wing_shear_control_mass wing_shear_control_mass_scaler)
      wing_shear_control_mass_scaler ∧
    HasDerivAt (fun t => out_wing_bending_material_mass fuselage_num_fuselages
      wing_bending_material_factor wing_ultimate_load_factor wing_span wing_composite_fraction
      wing_aeroelastic_tailoring_factor wing_var_sweep_mass_penalty wing_load_fraction wing_sweep
      design_gross_mass wing_eng_pod_inertia_factor wing_bending_material_mass_scaler
      wing_shear_control_mass wing_shear_control_mass_scaler t wing_misc_mass_scaler)
      (J_wing_bending_material_mass__wing_misc_mass fuselage_num_fuselages
      wing_bending_material_factor wing_ultimate_load_factor wing_span wing_composite_fraction
      wing_aeroelastic_tailoring_factor wing_var_sweep_mass_penalty wing_load_fraction wing_sweep
      wing_bending_material_mass_scaler wing_misc_mass_scaler) wing_misc_mass ∧
    HasDerivAt (fun t => out_wing_bending_material_mass fuselage_num_fuselages
      wing_bending_material_factor wing_ultimate_load_factor wing_span wing_composite_fraction
      wing_aeroelastic_tailoring_factor wing_var_sweep_mass_penalty wing_load_fraction wing_sweep
      design_gross_mass wing_eng_pod_inertia_factor wing_bending_material_mass_scaler
      wing_shear_control_mass wing_shear_control_mass_scaler wing_misc_mass t)
      (J_wing_bending_material_mass__wing_misc_mass_scaler fuselage_num_fuselages
      wing_bending_material_factor wing_ultimate_load_factor wing_span wing_composite_fraction
      wing_aeroelastic_tailoring_factor wing_var_sweep_mass_penalty wing_load_fraction wing_sweep
      wing_bending_material_mass_scaler wing_misc_mass wing_misc_mass_scaler)
      wing_misc_mass_scaler :=
  ⟨d_wing_bending_material_mass__design_gross_mass _ _ _ _ _ _ _ _ _ _ _ _ _ _ _ _ h0 h1 h2 h3 h4
    h5 h6 h7 h8 h9 h10 h1 h9, d_wing_bending_material_mass__wing_eng_pod_inertia_factor _ _ _ _ _
    _ _ _ _ _ _ _ _ _ _ _ h0 h1 h2 h3 h4 h5 h6 h7 h8 h9 h10 h1 h9,
    d_wing_bending_material_mass__wing_bending_material_mass_scaler _ _ _ _ _ _ _ _ _ _ _ _ _ _ _
    _ h0 h1 h2 h3 h4 h5 h6 h7 h8 h9 h10 h1 h9,
    d_wing_bending_material_mass__wing_shear_control_mass _ _ _ _ _ _ _ _ _ _ _ _ _ _ _ _ h0 h1 h2
    h3 h4 h5 h6 h7 h8 h9 h10 h1 h9, d_wing_bending_material_mass__wing_shear_control_mass_scaler _
    _ _ _ _ _ _ _ _ _ _ _ _ _ _ _ h0 h1 h2 h3 h4 h5 h6 h7 h8 h9 h10 h1 h9,
    d_wing_bending_material_mass__wing_misc_mass _ _ _ _ _ _ _ _ _ _ _ _ _ _ _ _ h0 h1 h2 h3 h4 h5
    h6 h7 h8 h9 h10 h1 h9, d_wing_bending_material_mass__wing_misc_mass_scaler _ _ _ _ _ _ _ _ _ _
    _ _ _ _ _ _ h0 h1 h2 h3 h4 h5 h6 h7 h8 h9 h10 h1 h9⟩

end Verif.Comp.MassFlopsBasedWingCommon.WingBendingMass

namespace Verif.Comp.MassFlopsBasedWingCommon.WingMiscMass
open Real

/-- Output `wing_misc_mass` of `WingMiscMass.compute`, aviary/subsystems/mass/flops_based/wing_common.py:341 -/
noncomputable def out_wing_misc_mass (wing_composite_fraction wing_area wing_misc_mass_scaler : ℝ) : ℝ :=
  (((7 / 200) * (1 - ((3 / 10) * wing_composite_fraction))) * (wing_area ^ ((3 / 2) : ℝ))) *
    wing_misc_mass_scaler

/-- Partial of `wing_misc_mass` with respect to `wing_composite_fraction` as set by `WingMiscMass`, aviary/subsystems/mass/flops_based/wing_common.py:350 -/
noncomputable def J_wing_misc_mass__wing_composite_fraction (wing_area wing_misc_mass_scaler : ℝ) : ℝ :=
  ((-(21 / 2000)) * (wing_area ^ ((3 / 2) : ℝ))) * wing_misc_mass_scaler

/-- Partial of `wing_misc_mass` with respect to `wing_area` as set by `WingMiscMass`, aviary/subsystems/mass/flops_based/wing_common.py:353 -/
noncomputable def J_wing_misc_mass__wing_area (wing_composite_fraction wing_area wing_misc_mass_scaler : ℝ) : ℝ :=
  ((((7 / 200) * (1 - ((3 / 10) * wing_composite_fraction))) * (3 / 2)) * (wing_area ^ ((1 / 2)
    : ℝ))) * wing_misc_mass_scaler

/-- Partial of `wing_misc_mass` with respect to `wing_misc_mass_scaler` as set by `WingMiscMass`, aviary/subsystems/mass/flops_based/wing_common.py:361 -/
noncomputable def J_wing_misc_mass__wing_misc_mass_scaler (wing_composite_fraction wing_area : ℝ) : ℝ :=
  ((7 / 200) * (1 - ((3 / 10) * wing_composite_fraction))) * (wing_area ^ ((3 / 2) : ℝ))

theorem d_wing_misc_mass__wing_composite_fraction (wing_composite_fraction wing_area
    wing_misc_mass_scaler : ℝ) (h0 : 0 < wing_area) :
    HasDerivAt (fun t => out_wing_misc_mass t wing_area wing_misc_mass_scaler) (J_wing_misc_mass__wing_composite_fraction wing_area wing_misc_mass_scaler) wing_composite_fraction := by
  have e0 : ∀ x : ℝ, 0 < x → x ^ ((3 / 2) : ℝ) = x ^ ((1 / 2) : ℝ) * x ^ 1 := fun x hx => rpow_up hx 1 (by norm_num)
  simp only [out_wing_misc_mass, J_wing_misc_mass__wing_composite_fraction]
  (apply hasDerivAt_of_eq; on_goal 1 => (repeat' comp_step))
  all_goals try comp_side
  all_goals try simp (disch := first | assumption | positivity) only [e0, div_mul_eq_div_div, div_half, inv_half]
  all_goals try simp only [mul_zero, zero_mul, add_zero, zero_add, sub_zero, zero_sub, mul_one, one_mul]
  all_goals try push_cast
  all_goals comp_eq

theorem d_wing_misc_mass__wing_area (wing_composite_fraction wing_area wing_misc_mass_scaler : ℝ)
    (h0 : 0 < wing_area) :
    HasDerivAt (fun t => out_wing_misc_mass wing_composite_fraction t wing_misc_mass_scaler) (J_wing_misc_mass__wing_area wing_composite_fraction wing_area wing_misc_mass_scaler) wing_area := by
  have e0 : ∀ x : ℝ, 0 < x → x ^ ((3 / 2) : ℝ) = x ^ ((1 / 2) : ℝ) * x ^ 1 := fun x hx => rpow_up hx 1 (by norm_num)
  simp only [out_wing_misc_mass, J_wing_misc_mass__wing_area]
  (apply hasDerivAt_of_eq; on_goal 1 => (repeat' comp_step))
  all_goals try comp_side
  all_goals try simp (disch := first | assumption | positivity) only [e0, div_mul_eq_div_div, div_half, inv_half]
  all_goals try simp only [mul_zero, zero_mul, add_zero, zero_add, sub_zero, zero_sub, mul_one, one_mul]
  all_goals try push_cast
  all_goals comp_eq

theorem d_wing_misc_mass__wing_misc_mass_scaler (wing_composite_fraction wing_area
    wing_misc_mass_scaler : ℝ) (h0 : 0 < wing_area) :
    HasDerivAt (fun t => out_wing_misc_mass wing_composite_fraction wing_area t) (J_wing_misc_mass__wing_misc_mass_scaler wing_composite_fraction wing_area) wing_misc_mass_scaler := by
  have e0 : ∀ x : ℝ, 0 < x → x ^ ((3 / 2) : ℝ) = x ^ ((1 / 2) : ℝ) * x ^ 1 := fun x hx => rpow_up hx 1 (by norm_num)
  simp only [out_wing_misc_mass, J_wing_misc_mass__wing_misc_mass_scaler]
  (apply hasDerivAt_of_eq; on_goal 1 => (repeat' comp_step))
  all_goals try comp_side
  all_goals try simp (disch := first | assumption | positivity) only [e0, div_mul_eq_div_div, div_half, inv_half]
  all_goals try simp only [mul_zero, zero_mul, add_zero, zero_add, sub_zero, zero_sub, mul_one, one_mul]
  all_goals try push_cast
  all_goals comp_eq

/-- Every partial derivative set by `WingMiscMass` is the derivative of its output. -/
theorem partials (wing_composite_fraction wing_area wing_misc_mass_scaler : ℝ) (h0 : 0 <
    wing_area) :
    HasDerivAt (fun t => out_wing_misc_mass t wing_area wing_misc_mass_scaler)
      (J_wing_misc_mass__wing_composite_fraction wing_area wing_misc_mass_scaler)
      wing_composite_fraction ∧
    HasDerivAt (fun t => out_wing_misc_mass wing_composite_fraction t wing_misc_mass_scaler)
      (J_wing_misc_mass__wing_area wing_composite_fraction wing_area wing_misc_mass_scaler)
      wing_area ∧
    HasDerivAt (fun t => out_wing_misc_mass wing_composite_fraction wing_area t)
      (J_wing_misc_mass__wing_misc_mass_scaler wing_composite_fraction wing_area)
      wing_misc_mass_scaler :=
  ⟨d_wing_misc_mass__wing_composite_fraction _ _ _ h0, d_wing_misc_mass__wing_area _ _ _ h0,
    d_wing_misc_mass__wing_misc_mass_scaler _ _ _ h0⟩

example : ∃ wing_composite_fraction wing_area wing_misc_mass_scaler : ℝ,
      0 < wing_area :=
  ⟨0, 1, 0, by comp_example⟩

end Verif.Comp.MassFlopsBasedWingCommon.WingMiscMass

namespace Verif.Comp.MassFlopsBasedWingCommon.WingShearControlMass
open Real

/-- aviary/subsystems/mass/flops_based/wing_common.py:274 -/
noncomputable def comp_frac_term (wing_composite_fraction : ℝ) : ℝ :=
  (17 / 25) * (1 - ((17 / 100) * wing_composite_fraction))

/-- Output `wing_shear_control_mass` of `WingShearControlMass.compute`, aviary/subsystems/mass/flops_based/wing_common.py:259 -/
noncomputable def out_wing_shear_control_mass (wing_composite_fraction design_gross_mass wing_control_surface_area wing_shear_control_mass_scaler : ℝ) : ℝ :=
  ((((17 / 25) * (1 - ((17 / 100) * wing_composite_fraction))) * (wing_control_surface_area ^
    ((17 / 50) : ℝ))) * (design_gross_mass ^ ((3 / 5) : ℝ))) * wing_shear_control_mass_scaler

/-- Partial of `wing_shear_control_mass` with respect to `wing_composite_fraction` as set by `WingShearControlMass`, aviary/subsystems/mass/flops_based/wing_common.py:276 -/
noncomputable def J_wing_shear_control_mass__wing_composite_fraction (design_gross_mass wing_control_surface_area wing_shear_control_mass_scaler : ℝ) : ℝ :=
  (((-(289 / 2500)) * (wing_control_surface_area ^ ((17 / 50) : ℝ))) * (design_gross_mass ^ ((3
    / 5) : ℝ))) * wing_shear_control_mass_scaler

/-- Partial of `wing_shear_control_mass` with respect to `wing_control_surface_area` as set by `WingShearControlMass`, aviary/subsystems/mass/flops_based/wing_common.py:280 -/
noncomputable def J_wing_shear_control_mass__wing_control_surface_area (wing_composite_fraction design_gross_mass wing_control_surface_area wing_shear_control_mass_scaler : ℝ) : ℝ :=
  ((((comp_frac_term wing_composite_fraction) * (17 / 50)) * (wing_control_surface_area ^ ((-(33
    / 50)) : ℝ))) * (design_gross_mass ^ ((3 / 5) : ℝ))) * wing_shear_control_mass_scaler

/-- Partial of `wing_shear_control_mass` with respect to `design_gross_mass` as set by `WingShearControlMass`, aviary/subsystems/mass/flops_based/wing_common.py:289 -/
noncomputable def J_wing_shear_control_mass__design_gross_mass (wing_composite_fraction design_gross_mass wing_control_surface_area wing_shear_control_mass_scaler : ℝ) : ℝ :=
  ((((comp_frac_term wing_composite_fraction) * (wing_control_surface_area ^ ((17 / 50) : ℝ))) *
    (3 / 5)) * (design_gross_mass ^ ((-(2 / 5)) : ℝ))) * wing_shear_control_mass_scaler

/-- Partial of `wing_shear_control_mass` with respect to `wing_shear_control_mass_scaler` as set by `WingShearControlMass`, aviary/subsystems/mass/flops_based/wing_common.py:293 -/
noncomputable def J_wing_shear_control_mass__wing_shear_control_mass_scaler (wing_composite_fraction design_gross_mass wing_control_surface_area : ℝ) : ℝ :=
  (((17 / 25) * (1 - ((17 / 100) * wing_composite_fraction))) * (wing_control_surface_area ^
    ((17 / 50) : ℝ))) * (design_gross_mass ^ ((3 / 5) : ℝ))

theorem d_wing_shear_control_mass__wing_composite_fraction (wing_composite_fraction
    design_gross_mass wing_control_surface_area wing_shear_control_mass_scaler : ℝ) (h0 : 0 <
    wing_control_surface_area) (h1 : 0 < design_gross_mass) :
    HasDerivAt (fun t => out_wing_shear_control_mass t design_gross_mass wing_control_surface_area wing_shear_control_mass_scaler) (J_wing_shear_control_mass__wing_composite_fraction design_gross_mass wing_control_surface_area wing_shear_control_mass_scaler) wing_composite_fraction := by
  simp only [out_wing_shear_control_mass, J_wing_shear_control_mass__wing_composite_fraction]
  (apply hasDerivAt_of_eq; on_goal 1 => (repeat' comp_step))
  all_goals try comp_side
  all_goals try simp only [mul_zero, zero_mul, add_zero, zero_add, sub_zero, zero_sub, mul_one, one_mul]
  all_goals try push_cast
  all_goals comp_eq

theorem d_wing_shear_control_mass__design_gross_mass (wing_composite_fraction design_gross_mass
    wing_control_surface_area wing_shear_control_mass_scaler : ℝ) (h0 : 0 <
    wing_control_surface_area) (h1 : 0 < design_gross_mass) :
    HasDerivAt (fun t => out_wing_shear_control_mass wing_composite_fraction t wing_control_surface_area wing_shear_control_mass_scaler) (J_wing_shear_control_mass__design_gross_mass wing_composite_fraction design_gross_mass wing_control_surface_area wing_shear_control_mass_scaler) design_gross_mass := by
  have e0 : ∀ x : ℝ, 0 < x → x ^ ((-(2 / 5)) : ℝ) = x ^ ((3 / 5) : ℝ) / x ^ 1 := fun x hx => rpow_down hx 1 (by norm_num)
  simp only [out_wing_shear_control_mass, J_wing_shear_control_mass__design_gross_mass, comp_frac_term]
  (apply hasDerivAt_of_eq; on_goal 1 => (repeat' comp_step))
  all_goals try comp_side
  all_goals try simp (disch := first | assumption | positivity) only [e0]
  all_goals try simp only [mul_zero, zero_mul, add_zero, zero_add, sub_zero, zero_sub, mul_one, one_mul]
  all_goals try push_cast
  all_goals comp_eq

theorem d_wing_shear_control_mass__wing_control_surface_area (wing_composite_fraction
    design_gross_mass wing_control_surface_area wing_shear_control_mass_scaler : ℝ) (h0 : 0 <
    wing_control_surface_area) (h1 : 0 < design_gross_mass) :
    HasDerivAt (fun t => out_wing_shear_control_mass wing_composite_fraction design_gross_mass t wing_shear_control_mass_scaler) (J_wing_shear_control_mass__wing_control_surface_area wing_composite_fraction design_gross_mass wing_control_surface_area wing_shear_control_mass_scaler) wing_control_surface_area := by
  have e0 : ∀ x : ℝ, 0 < x → x ^ ((-(33 / 50)) : ℝ) = x ^ ((17 / 50) : ℝ) / x ^ 1 := fun x hx => rpow_down hx 1 (by norm_num)
  simp only [out_wing_shear_control_mass, J_wing_shear_control_mass__wing_control_surface_area, comp_frac_term]
  (apply hasDerivAt_of_eq; on_goal 1 => (repeat' comp_step))
  all_goals try comp_side
  all_goals try simp (disch := first | assumption | positivity) only [e0]
  all_goals try simp only [mul_zero, zero_mul, add_zero, zero_add, sub_zero, zero_sub, mul_one, one_mul]
  all_goals try push_cast
  all_goals comp_eq

theorem d_wing_shear_control_mass__wing_shear_control_mass_scaler (wing_composite_fraction
    design_gross_mass wing_control_surface_area wing_shear_control_mass_scaler : ℝ) (h0 : 0 <
    wing_control_surface_area) (h1 : 0 < design_gross_mass) :
    HasDerivAt (fun t => out_wing_shear_control_mass wing_composite_fraction design_gross_mass wing_control_surface_area t) (J_wing_shear_control_mass__wing_shear_control_mass_scaler wing_composite_fraction design_gross_mass wing_control_surface_area) wing_shear_control_mass_scaler := by
  simp only [out_wing_shear_control_mass, J_wing_shear_control_mass__wing_shear_control_mass_scaler]
  (apply hasDerivAt_of_eq; on_goal 1 => (repeat' comp_step))
  all_goals try comp_side
  all_goals try simp only [mul_zero, zero_mul, add_zero, zero_add, sub_zero, zero_sub, mul_one, one_mul]
  all_goals try push_cast
  all_goals comp_eq

/-- Every partial derivative set by `WingShearControlMass` is the derivative of its output. -/
theorem partials (wing_composite_fraction design_gross_mass wing_control_surface_area
    wing_shear_control_mass_scaler : ℝ) (h0 : 0 < wing_control_surface_area) (h1 : 0 <
    design_gross_mass) :
    HasDerivAt (fun t => out_wing_shear_control_mass t design_gross_mass wing_control_surface_area
      wing_shear_control_mass_scaler) (J_wing_shear_control_mass__wing_composite_fraction
      design_gross_mass wing_control_surface_area wing_shear_control_mass_scaler)
      wing_composite_fraction ∧
    HasDerivAt (fun t => out_wing_shear_control_mass wing_composite_fraction t
      wing_control_surface_area wing_shear_control_mass_scaler)
      (J_wing_shear_control_mass__design_gross_mass wing_composite_fraction design_gross_mass
      wing_control_surface_area wing_shear_control_mass_scaler) design_gross_mass ∧
    HasDerivAt (fun t => out_wing_shear_control_mass wing_composite_fraction design_gross_mass t
      wing_shear_control_mass_scaler) (J_wing_shear_control_mass__wing_control_surface_area
      wing_composite_fraction design_gross_mass wing_control_surface_area
      wing_shear_control_mass_scaler) wing_control_surface_area ∧
    HasDerivAt (fun t => out_wing_shear_control_mass wing_composite_fraction design_gross_mass
      wing_control_surface_area t) (J_wing_shear_control_mass__wing_shear_control_mass_scaler
      wing_composite_fraction design_gross_mass wing_control_surface_area)
      wing_shear_control_mass_scaler :=
  ⟨d_wing_shear_control_mass__wing_composite_fraction _ _ _ _ h0 h1,
    d_wing_shear_control_mass__design_gross_mass _ _ _ _ h0 h1,
    d_wing_shear_control_mass__wing_control_surface_area _ _ _ _ h0 h1,
    d_wing_shear_control_mass__wing_shear_control_mass_scaler _ _ _ _ h0 h1⟩

example : ∃ wing_composite_fraction design_gross_mass wing_control_surface_area
      wing_shear_control_mass_scaler : ℝ,
      0 < wing_control_surface_area ∧
      0 < design_gross_mass :=
  ⟨0, 1, 1, 0, by comp_example, by comp_example⟩

end Verif.Comp.MassFlopsBasedWingCommon.WingShearControlMass

namespace Verif.Comp.MassFlopsBasedWingCommon.WingTotalMass
open Real

/-- Output `wing_mass` of `WingTotalMass.compute`, aviary/subsystems/mass/flops_based/wing_common.py:447 -/
noncomputable def out_wing_mass (wing_bending_material_mass wing_shear_control_mass wing_misc_mass wing_bwb_aftbody_mass wing_mass_scaler : ℝ) : ℝ :=
  (((wing_bending_material_mass + wing_shear_control_mass) + wing_misc_mass) +
    wing_bwb_aftbody_mass) * wing_mass_scaler

/-- Partial of `wing_mass` with respect to `wing_bending_material_mass` as set by `WingTotalMass`, aviary/subsystems/mass/flops_based/wing_common.py:456 -/
noncomputable def J_wing_mass__wing_bending_material_mass (wing_mass_scaler : ℝ) : ℝ :=
  wing_mass_scaler

/-- Partial of `wing_mass` with respect to `wing_shear_control_mass` as set by `WingTotalMass`, aviary/subsystems/mass/flops_based/wing_common.py:457 -/
noncomputable def J_wing_mass__wing_shear_control_mass (wing_mass_scaler : ℝ) : ℝ :=
  wing_mass_scaler

/-- Partial of `wing_mass` with respect to `wing_misc_mass` as set by `WingTotalMass`, aviary/subsystems/mass/flops_based/wing_common.py:458 -/
noncomputable def J_wing_mass__wing_misc_mass (wing_mass_scaler : ℝ) : ℝ := wing_mass_scaler

/-- Partial of `wing_mass` with respect to `wing_bwb_aftbody_mass` as set by `WingTotalMass`, aviary/subsystems/mass/flops_based/wing_common.py:459 -/
noncomputable def J_wing_mass__wing_bwb_aftbody_mass (wing_mass_scaler : ℝ) : ℝ := wing_mass_scaler

/-- Partial of `wing_mass` with respect to `wing_mass_scaler` as set by `WingTotalMass`, aviary/subsystems/mass/flops_based/wing_common.py:460 -/
noncomputable def J_wing_mass__wing_mass_scaler (wing_bending_material_mass wing_shear_control_mass wing_misc_mass wing_bwb_aftbody_mass : ℝ) : ℝ :=
  ((wing_bending_material_mass + wing_shear_control_mass) + wing_misc_mass) +
    wing_bwb_aftbody_mass

theorem d_wing_mass__wing_bending_material_mass (wing_bending_material_mass
    wing_shear_control_mass wing_misc_mass wing_bwb_aftbody_mass wing_mass_scaler : ℝ)  :
    HasDerivAt (fun t => out_wing_mass t wing_shear_control_mass wing_misc_mass wing_bwb_aftbody_mass wing_mass_scaler) (J_wing_mass__wing_bending_material_mass wing_mass_scaler) wing_bending_material_mass := by
  simp only [out_wing_mass, J_wing_mass__wing_bending_material_mass]
  (apply hasDerivAt_of_eq; on_goal 1 => (repeat' comp_step))
  all_goals try comp_side
  all_goals try simp only [mul_zero, zero_mul, add_zero, zero_add, sub_zero, zero_sub, mul_one, one_mul]
  all_goals try push_cast
  all_goals comp_eq

theorem d_wing_mass__wing_shear_control_mass (wing_bending_material_mass wing_shear_control_mass
    wing_misc_mass wing_bwb_aftbody_mass wing_mass_scaler : ℝ)  :
    HasDerivAt (fun t => out_wing_mass wing_bending_material_mass t wing_misc_mass wing_bwb_aftbody_mass wing_mass_scaler) (J_wing_mass__wing_shear_control_mass wing_mass_scaler) wing_shear_control_mass := by
  simp only [out_wing_mass, J_wing_mass__wing_shear_control_mass]
  (apply hasDerivAt_of_eq; on_goal 1 => (repeat' comp_step))
  all_goals try comp_side
  all_goals try simp only [mul_zero, zero_mul, add_zero, zero_add, sub_zero, zero_sub, mul_one, one_mul]
  all_goals try push_cast
  all_goals comp_eq

theorem d_wing_mass__wing_misc_mass (wing_bending_material_mass wing_shear_control_mass
    wing_misc_mass wing_bwb_aftbody_mass wing_mass_scaler : ℝ)  :
    HasDerivAt (fun t => out_wing_mass wing_bending_material_mass wing_shear_control_mass t wing_bwb_aftbody_mass wing_mass_scaler) (J_wing_mass__wing_misc_mass wing_mass_scaler) wing_misc_mass := by
  simp only [out_wing_mass, J_wing_mass__wing_misc_mass]
  (apply hasDerivAt_of_eq; on_goal 1 => (repeat' comp_step))
  all_goals try comp_side
  all_goals try simp only [mul_zero, zero_mul, add_zero, zero_add, sub_zero, zero_sub, mul_one, one_mul]
  all_goals try push_cast
  all_goals comp_eq

theorem d_wing_mass__wing_bwb_aftbody_mass (wing_bending_material_mass wing_shear_control_mass
    wing_misc_mass wing_bwb_aftbody_mass wing_mass_scaler : ℝ)  :
    HasDerivAt (fun t => out_wing_mass wing_bending_material_mass wing_shear_control_mass wing_misc_mass t wing_mass_scaler) (J_wing_mass__wing_bwb_aftbody_mass wing_mass_scaler) wing_bwb_aftbody_mass := by
  simp only [out_wing_mass, J_wing_mass__wing_bwb_aftbody_mass]
  (apply hasDerivAt_of_eq; on_goal 1 => (repeat' comp_step))
  all_goals try comp_side
  all_goals try simp only [mul_zero, zero_mul, add_zero, zero_add, sub_zero, zero_sub, mul_one, one_mul]
  all_goals try push_cast
  all_goals comp_eq

theorem d_wing_mass__wing_mass_scaler (wing_bending_material_mass wing_shear_control_mass
    wing_misc_mass wing_bwb_aftbody_mass wing_mass_scaler : ℝ)  :
    HasDerivAt (fun t => out_wing_mass wing_bending_material_mass wing_shear_control_mass wing_misc_mass wing_bwb_aftbody_mass t) (J_wing_mass__wing_mass_scaler wing_bending_material_mass wing_shear_control_mass wing_misc_mass wing_bwb_aftbody_mass) wing_mass_scaler := by
  simp only [out_wing_mass, J_wing_mass__wing_mass_scaler]
  (apply hasDerivAt_of_eq; on_goal 1 => (repeat' comp_step))
  all_goals try comp_side
  all_goals try simp only [mul_zero, zero_mul, add_zero, zero_add, sub_zero, zero_sub, mul_one, one_mul]
  all_goals try push_cast
  all_goals comp_eq

/-- Every partial derivative set by `WingTotalMass` is the derivative of its output. -/
theorem partials (wing_bending_material_mass wing_shear_control_mass wing_misc_mass
    wing_bwb_aftbody_mass wing_mass_scaler : ℝ) :
    HasDerivAt (fun t => out_wing_mass t wing_shear_control_mass wing_misc_mass wing_bwb_aftbody_mass
      wing_mass_scaler) (J_wing_mass__wing_bending_material_mass wing_mass_scaler)
      wing_bending_material_mass ∧
    HasDerivAt (fun t => out_wing_mass wing_bending_material_mass t wing_misc_mass
      wing_bwb_aftbody_mass wing_mass_scaler) (J_wing_mass__wing_shear_control_mass
      wing_mass_scaler) wing_shear_control_mass ∧
    HasDerivAt (fun t => out_wing_mass wing_bending_material_mass wing_shear_control_mass t
      wing_bwb_aftbody_mass wing_mass_scaler) (J_wing_mass__wing_misc_mass wing_mass_scaler)
      wing_misc_mass ∧
    HasDerivAt (fun t => out_wing_mass wing_bending_material_mass wing_shear_control_mass
      wing_misc_mass t wing_mass_scaler) (J_wing_mass__wing_bwb_aftbody_mass wing_mass_scaler)
      wing_bwb_aftbody_mass ∧
    HasDerivAt (fun t => out_wing_mass wing_bending_material_mass wing_shear_control_mass
      wing_misc_mass wing_bwb_aftbody_mass t) (J_wing_mass__wing_mass_scaler
      wing_bending_material_mass wing_shear_control_mass wing_misc_mass wing_bwb_aftbody_mass)
      wing_mass_scaler :=
  ⟨d_wing_mass__wing_bending_material_mass _ _ _ _ _, d_wing_mass__wing_shear_control_mass _ _ _ _
    _, d_wing_mass__wing_misc_mass _ _ _ _ _, d_wing_mass__wing_bwb_aftbody_mass _ _ _ _ _,
    d_wing_mass__wing_mass_scaler _ _ _ _ _⟩

end Verif.Comp.MassFlopsBasedWingCommon.WingTotalMass

