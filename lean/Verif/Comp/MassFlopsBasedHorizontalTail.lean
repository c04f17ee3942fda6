import Verif.Lemmas.CompDeriv

/-! # Partial derivatives of the components of `aviary/subsystems/mass/flops_based/horizontal_tail.py`

One node of a vector component is modelled over the real numbers.  Each option that selects a
branch is fixed, one namespace per choice.  `out_x` is the output `x`, `J_x__y` the entry that
`compute_partials` (or `declare_partials` with `val`) assigns, `d_x__y` the proof that the entry is
the derivative.  Inputs an output does not take as argument have no influence on it.

* `HorizontalTailMass`: line 40: raise branch excluded -/

set_option linter.all false

namespace Verif.Comp.MassFlopsBasedHorizontalTail.AltHorizontalTailMass
open Real

/-- Output `horizontaltail_mass` of `AltHorizontalTailMass.compute`, aviary/subsystems/mass/flops_based/horizontal_tail.py:98 -/
noncomputable def out_horizontaltail_mass (horizontaltail_area horizontaltail_mass_scaler : ℝ) : ℝ :=
  (horizontaltail_mass_scaler * (27 / 5)) * horizontaltail_area

/-- Partial of `horizontaltail_mass` with respect to `horizontaltail_area` as set by `AltHorizontalTailMass`, aviary/subsystems/mass/flops_based/horizontal_tail.py:104 -/
noncomputable def J_horizontaltail_mass__horizontaltail_area (horizontaltail_mass_scaler : ℝ) : ℝ :=
  (27 / 5) * horizontaltail_mass_scaler

/-- Partial of `horizontaltail_mass` with respect to `horizontaltail_mass_scaler` as set by `AltHorizontalTailMass`, aviary/subsystems/mass/flops_based/horizontal_tail.py:108 -/
noncomputable def J_horizontaltail_mass__horizontaltail_mass_scaler (horizontaltail_area : ℝ) : ℝ :=
  (27 / 5) * horizontaltail_area

theorem d_horizontaltail_mass__horizontaltail_area (horizontaltail_area horizontaltail_mass_scaler
    : ℝ)  :
    HasDerivAt (fun t => out_horizontaltail_mass t horizontaltail_mass_scaler) (J_horizontaltail_mass__horizontaltail_area horizontaltail_mass_scaler) horizontaltail_area := by
  simp only [out_horizontaltail_mass, J_horizontaltail_mass__horizontaltail_area]
  (apply hasDerivAt_of_eq; on_goal 1 => (repeat' comp_step))
  all_goals try comp_side
  all_goals try simp only [mul_zero, zero_mul, add_zero, zero_add, sub_zero, zero_sub, mul_one, one_mul]
  all_goals try push_cast
  all_goals comp_eq

theorem d_horizontaltail_mass__horizontaltail_mass_scaler (horizontaltail_area
    horizontaltail_mass_scaler : ℝ)  :
    HasDerivAt (fun t => out_horizontaltail_mass horizontaltail_area t) (J_horizontaltail_mass__horizontaltail_mass_scaler horizontaltail_area) horizontaltail_mass_scaler := by
  simp only [out_horizontaltail_mass, J_horizontaltail_mass__horizontaltail_mass_scaler]
  (apply hasDerivAt_of_eq; on_goal 1 => (repeat' comp_step))
  all_goals try comp_side
  all_goals try simp only [mul_zero, zero_mul, add_zero, zero_add, sub_zero, zero_sub, mul_one, one_mul]
  all_goals try push_cast
  all_goals comp_eq

/-- Every partial derivative set by `AltHorizontalTailMass` is the derivative of its output. -/
theorem partials (horizontaltail_area horizontaltail_mass_scaler : ℝ) :
    HasDerivAt (fun t => out_horizontaltail_mass t horizontaltail_mass_scaler)
      (J_horizontaltail_mass__horizontaltail_area horizontaltail_mass_scaler) horizontaltail_area ∧
    HasDerivAt (fun t => out_horizontaltail_mass horizontaltail_area t)
      (J_horizontaltail_mass__horizontaltail_mass_scaler horizontaltail_area)
      horizontaltail_mass_scaler :=
  ⟨d_horizontaltail_mass__horizontaltail_area _ _,
    d_horizontaltail_mass__horizontaltail_mass_scaler _ _⟩

end Verif.Comp.MassFlopsBasedHorizontalTail.AltHorizontalTailMass

namespace Verif.Comp.MassFlopsBasedHorizontalTail.HorizontalTailMass
open Real

/-- aviary/subsystems/mass/flops_based/horizontal_tail.py:53 -/
noncomputable abbrev gross_weight_exp (design_gross_mass : ℝ) : ℝ :=
  design_gross_mass ^ ((1 / 5) : ℝ)

/-- Output `horizontaltail_mass` of `HorizontalTailMass.compute`, aviary/subsystems/mass/flops_based/horizontal_tail.py:41 -/
noncomputable def out_horizontaltail_mass (horizontaltail_num_tails horizontaltail_area design_gross_mass horizontaltail_mass_scaler horizontaltail_taper_ratio : ℝ) : ℝ :=
  if horizontaltail_num_tails = 1 then ((((horizontaltail_mass_scaler * (53 / 100)) *
    horizontaltail_area) * (design_gross_mass ^ ((1 / 5) : ℝ))) * (horizontaltail_taper_ratio +
    (1 / 2))) else 0

/-- Partial of `horizontaltail_mass` with respect to `horizontaltail_area` as set by `HorizontalTailMass`, aviary/subsystems/mass/flops_based/horizontal_tail.py:72 -/
noncomputable def J_horizontaltail_mass__horizontaltail_area (horizontaltail_num_tails design_gross_mass horizontaltail_mass_scaler horizontaltail_taper_ratio : ℝ) : ℝ :=
  if horizontaltail_num_tails = 1 then (((horizontaltail_mass_scaler * (53 / 100)) *
    (gross_weight_exp design_gross_mass)) * (horizontaltail_taper_ratio + (1 / 2))) else 0

/-- Partial of `horizontaltail_mass` with respect to `horizontaltail_mass_scaler` as set by `HorizontalTailMass`, aviary/subsystems/mass/flops_based/horizontal_tail.py:73 -/
noncomputable def J_horizontaltail_mass__horizontaltail_mass_scaler (horizontaltail_num_tails horizontaltail_area design_gross_mass horizontaltail_taper_ratio : ℝ) : ℝ :=
  if horizontaltail_num_tails = 1 then ((((53 / 100) * horizontaltail_area) * (gross_weight_exp
    design_gross_mass)) * (horizontaltail_taper_ratio + (1 / 2))) else 0

/-- Partial of `horizontaltail_mass` with respect to `design_gross_mass` as set by `HorizontalTailMass`, aviary/subsystems/mass/flops_based/horizontal_tail.py:74 -/
noncomputable def J_horizontaltail_mass__design_gross_mass (horizontaltail_num_tails horizontaltail_area design_gross_mass horizontaltail_mass_scaler horizontaltail_taper_ratio : ℝ) : ℝ :=
  if horizontaltail_num_tails = 1 then ((((horizontaltail_mass_scaler * (53 / 500)) *
    horizontaltail_area) * (design_gross_mass ^ ((-(4 / 5)) : ℝ))) * (horizontaltail_taper_ratio
    + (1 / 2))) else 0

/-- Partial of `horizontaltail_mass` with respect to `horizontaltail_taper_ratio` as set by `HorizontalTailMass`, aviary/subsystems/mass/flops_based/horizontal_tail.py:75 -/
noncomputable def J_horizontaltail_mass__horizontaltail_taper_ratio (horizontaltail_num_tails horizontaltail_area design_gross_mass horizontaltail_mass_scaler : ℝ) : ℝ :=
  if horizontaltail_num_tails = 1 then (((horizontaltail_mass_scaler * (53 / 100)) *
    horizontaltail_area) * (gross_weight_exp design_gross_mass)) else 0

theorem d_horizontaltail_mass__horizontaltail_area (horizontaltail_num_tails horizontaltail_area
    design_gross_mass horizontaltail_mass_scaler horizontaltail_taper_ratio : ℝ) (h0 : 0 <
    design_gross_mass) :
    HasDerivAt (fun t => out_horizontaltail_mass horizontaltail_num_tails t design_gross_mass horizontaltail_mass_scaler horizontaltail_taper_ratio) (J_horizontaltail_mass__horizontaltail_area horizontaltail_num_tails design_gross_mass horizontaltail_mass_scaler horizontaltail_taper_ratio) horizontaltail_area := by
  simp only [out_horizontaltail_mass, J_horizontaltail_mass__horizontaltail_area, gross_weight_exp]
  try split_ifs
  all_goals (apply hasDerivAt_of_eq; on_goal 1 => (repeat' comp_step))
  all_goals try comp_side
  all_goals try split_ifs
  all_goals try (exfalso; linarith)
  all_goals try simp only [mul_zero, zero_mul, add_zero, zero_add, sub_zero, zero_sub, mul_one, one_mul]
  all_goals try push_cast
  all_goals comp_eq

theorem d_horizontaltail_mass__design_gross_mass (horizontaltail_num_tails horizontaltail_area
    design_gross_mass horizontaltail_mass_scaler horizontaltail_taper_ratio : ℝ) (h0 : 0 <
    design_gross_mass) :
    HasDerivAt (fun t => out_horizontaltail_mass horizontaltail_num_tails horizontaltail_area t horizontaltail_mass_scaler horizontaltail_taper_ratio) (J_horizontaltail_mass__design_gross_mass horizontaltail_num_tails horizontaltail_area design_gross_mass horizontaltail_mass_scaler horizontaltail_taper_ratio) design_gross_mass := by
  have e0 : ∀ x : ℝ, 0 < x → x ^ ((-(4 / 5)) : ℝ) = x ^ ((1 / 5) : ℝ) / x ^ 1 := fun x hx => rpow_down hx 1 (by norm_num)
  simp only [out_horizontaltail_mass, J_horizontaltail_mass__design_gross_mass]
  try split_ifs
  all_goals (apply hasDerivAt_of_eq; on_goal 1 => (repeat' comp_step))
  all_goals try comp_side
  all_goals try simp (disch := first | assumption | positivity) only [e0]
  all_goals try split_ifs
  all_goals try (exfalso; linarith)
  all_goals try simp only [mul_zero, zero_mul, add_zero, zero_add, sub_zero, zero_sub, mul_one, one_mul]
  all_goals try push_cast
  all_goals comp_eq

theorem d_horizontaltail_mass__horizontaltail_mass_scaler (horizontaltail_num_tails
    horizontaltail_area design_gross_mass horizontaltail_mass_scaler horizontaltail_taper_ratio :
    ℝ) (h0 : 0 < design_gross_mass) :
    HasDerivAt (fun t => out_horizontaltail_mass horizontaltail_num_tails horizontaltail_area design_gross_mass t horizontaltail_taper_ratio) (J_horizontaltail_mass__horizontaltail_mass_scaler horizontaltail_num_tails horizontaltail_area design_gross_mass horizontaltail_taper_ratio) horizontaltail_mass_scaler := by
  simp only [out_horizontaltail_mass, J_horizontaltail_mass__horizontaltail_mass_scaler, gross_weight_exp]
  try split_ifs
  all_goals (apply hasDerivAt_of_eq; on_goal 1 => (repeat' comp_step))
  all_goals try comp_side
  all_goals try split_ifs
  all_goals try (exfalso; linarith)
  all_goals try simp only [mul_zero, zero_mul, add_zero, zero_add, sub_zero, zero_sub, mul_one, one_mul]
  all_goals try push_cast
  all_goals comp_eq

theorem d_horizontaltail_mass__horizontaltail_taper_ratio (horizontaltail_num_tails
    horizontaltail_area design_gross_mass horizontaltail_mass_scaler horizontaltail_taper_ratio :
    ℝ) (h0 : 0 < design_gross_mass) :
    HasDerivAt (fun t => out_horizontaltail_mass horizontaltail_num_tails horizontaltail_area design_gross_mass horizontaltail_mass_scaler t) (J_horizontaltail_mass__horizontaltail_taper_ratio horizontaltail_num_tails horizontaltail_area design_gross_mass horizontaltail_mass_scaler) horizontaltail_taper_ratio := by
  simp only [out_horizontaltail_mass, J_horizontaltail_mass__horizontaltail_taper_ratio, gross_weight_exp]
  try split_ifs
  all_goals (apply hasDerivAt_of_eq; on_goal 1 => (repeat' comp_step))
  all_goals try comp_side
  all_goals try split_ifs
  all_goals try (exfalso; linarith)
  all_goals try simp only [mul_zero, zero_mul, add_zero, zero_add, sub_zero, zero_sub, mul_one, one_mul]
  all_goals try push_cast
  all_goals comp_eq

/-- Every partial derivative set by `HorizontalTailMass` is the derivative of its output. -/
theorem partials (horizontaltail_num_tails horizontaltail_area design_gross_mass
    horizontaltail_mass_scaler horizontaltail_taper_ratio : ℝ) (h0 : 0 < design_gross_mass) :
    HasDerivAt (fun t => out_horizontaltail_mass horizontaltail_num_tails t design_gross_mass
      horizontaltail_mass_scaler horizontaltail_taper_ratio)
      (J_horizontaltail_mass__horizontaltail_area horizontaltail_num_tails design_gross_mass
      horizontaltail_mass_scaler horizontaltail_taper_ratio) horizontaltail_area ∧
    HasDerivAt (fun t => out_horizontaltail_mass horizontaltail_num_tails horizontaltail_area t
      horizontaltail_mass_scaler horizontaltail_taper_ratio)
      (J_horizontaltail_mass__design_gross_mass horizontaltail_num_tails horizontaltail_area
      design_gross_mass horizontaltail_mass_scaler horizontaltail_taper_ratio) design_gross_mass ∧
    HasDerivAt (fun t => out_horizontaltail_mass horizontaltail_num_tails horizontaltail_area
      design_gross_mass t horizontaltail_taper_ratio)
      (J_horizontaltail_mass__horizontaltail_mass_scaler horizontaltail_num_tails
      horizontaltail_area design_gross_mass horizontaltail_taper_ratio) horizontaltail_mass_scaler ∧
    HasDerivAt (fun t => out_horizontaltail_mass horizontaltail_num_tails horizontaltail_area
      design_gross_mass horizontaltail_mass_scaler t)
      (J_horizontaltail_mass__horizontaltail_taper_ratio horizontaltail_num_tails
      horizontaltail_area design_gross_mass horizontaltail_mass_scaler) horizontaltail_taper_ratio :=
  ⟨d_horizontaltail_mass__horizontaltail_area _ _ _ _ _ h0,
    d_horizontaltail_mass__design_gross_mass _ _ _ _ _ h0,
    d_horizontaltail_mass__horizontaltail_mass_scaler _ _ _ _ _ h0,
    d_horizontaltail_mass__horizontaltail_taper_ratio _ _ _ _ _ h0⟩

example : ∃ horizontaltail_num_tails horizontaltail_area design_gross_mass
      horizontaltail_mass_scaler horizontaltail_taper_ratio : ℝ,
      0 < design_gross_mass :=
  ⟨0, 0, 1, 0, 0, by comp_example⟩

end Verif.Comp.MassFlopsBasedHorizontalTail.HorizontalTailMass

