import Verif.Lemmas.CompDeriv

/-! # Partial derivatives of the components of `aviary/subsystems/mass/flops_based/vertical_tail.py`

One node of a vector component is modelled over the real numbers.  Each option that selects a
branch is fixed, one namespace per choice.  `out_x` is the output `x`, `J_x__y` the entry that
`compute_partials` (or `declare_partials` with `val`) assigns, `d_x__y` the proof that the entry is
the derivative.  Inputs an output does not take as argument have no influence on it. -/

set_option linter.all false

namespace Verif.Comp.MassFlopsBasedVerticalTail.AltVerticalTailMass
open Real

/-- Output `verticaltail_mass` of `AltVerticalTailMass.compute`, aviary/subsystems/mass/flops_based/vertical_tail.py:110 -/
noncomputable def out_verticaltail_mass (verticaltail_area verticaltail_mass_scaler : ℝ) : ℝ :=
  (verticaltail_mass_scaler * 6) * verticaltail_area

/-- Partial of `verticaltail_mass` with respect to `verticaltail_area` as set by `AltVerticalTailMass`, aviary/subsystems/mass/flops_based/vertical_tail.py:116 -/
noncomputable def J_verticaltail_mass__verticaltail_area (verticaltail_mass_scaler : ℝ) : ℝ :=
  6 * verticaltail_mass_scaler

/-- Partial of `verticaltail_mass` with respect to `verticaltail_mass_scaler` as set by `AltVerticalTailMass`, aviary/subsystems/mass/flops_based/vertical_tail.py:118 -/
noncomputable def J_verticaltail_mass__verticaltail_mass_scaler (verticaltail_area : ℝ) : ℝ :=
  6 * verticaltail_area

theorem d_verticaltail_mass__verticaltail_area (verticaltail_area verticaltail_mass_scaler : ℝ)  :
    HasDerivAt (fun t => out_verticaltail_mass t verticaltail_mass_scaler) (J_verticaltail_mass__verticaltail_area verticaltail_mass_scaler) verticaltail_area := by
  simp only [out_verticaltail_mass, J_verticaltail_mass__verticaltail_area]
  (apply hasDerivAt_of_eq; on_goal 1 => (repeat' comp_step))
  all_goals try comp_side
  all_goals try simp only [mul_zero, zero_mul, add_zero, zero_add, sub_zero, zero_sub, mul_one, one_mul]
  all_goals try push_cast
  all_goals comp_eq

theorem d_verticaltail_mass__verticaltail_mass_scaler (verticaltail_area verticaltail_mass_scaler
    : ℝ)  :
    HasDerivAt (fun t => out_verticaltail_mass verticaltail_area t) (J_verticaltail_mass__verticaltail_mass_scaler verticaltail_area) verticaltail_mass_scaler := by
  simp only [out_verticaltail_mass, J_verticaltail_mass__verticaltail_mass_scaler]
  (apply hasDerivAt_of_eq; on_goal 1 => (repeat' comp_step))
  all_goals try comp_side
  all_goals try simp only [mul_zero, zero_mul, add_zero, zero_add, sub_zero, zero_sub, mul_one, one_mul]
  all_goals try push_cast
  all_goals comp_eq

/-- Every partial derivative set by `AltVerticalTailMass` is the derivative of its output. -/
theorem partials (verticaltail_area verticaltail_mass_scaler : ℝ) :
    HasDerivAt (fun t => out_verticaltail_mass t verticaltail_mass_scaler)
      (J_verticaltail_mass__verticaltail_area verticaltail_mass_scaler) verticaltail_area ∧
    HasDerivAt (fun t => out_verticaltail_mass verticaltail_area t)
      (J_verticaltail_mass__verticaltail_mass_scaler verticaltail_area) verticaltail_mass_scaler :=
  ⟨d_verticaltail_mass__verticaltail_area _ _, d_verticaltail_mass__verticaltail_mass_scaler _ _⟩

end Verif.Comp.MassFlopsBasedVerticalTail.AltVerticalTailMass

namespace Verif.Comp.MassFlopsBasedVerticalTail.VerticalTailMass
open Real

/-- aviary/subsystems/mass/flops_based/vertical_tail.py:54 -/
noncomputable abbrev gross_weight_exp (design_gross_mass : ℝ) : ℝ :=
  design_gross_mass ^ ((3 / 10) : ℝ)

/-- aviary/subsystems/mass/flops_based/vertical_tail.py:55 -/
noncomputable abbrev area_exp (verticaltail_area : ℝ) : ℝ := verticaltail_area ^ ((17 / 20) : ℝ)

/-- aviary/subsystems/mass/flops_based/vertical_tail.py:56 -/
noncomputable abbrev num_tails_exp (verticaltail_num_tails : ℝ) : ℝ :=
  verticaltail_num_tails ^ ((7 / 10) : ℝ)

/-- Output `verticaltail_mass` of `VerticalTailMass.compute`, aviary/subsystems/mass/flops_based/vertical_tail.py:36 -/
noncomputable def out_verticaltail_mass (verticaltail_num_tails verticaltail_area verticaltail_taper_ratio verticaltail_mass_scaler design_gross_mass : ℝ) : ℝ :=
  ((((verticaltail_mass_scaler * (8 / 25)) * (design_gross_mass ^ ((3 / 10) : ℝ))) *
    (verticaltail_taper_ratio + (1 / 2))) * (verticaltail_area ^ ((17 / 20) : ℝ))) *
    (verticaltail_num_tails ^ ((7 / 10) : ℝ))

/-- Partial of `verticaltail_mass` with respect to `verticaltail_area` as set by `VerticalTailMass`, aviary/subsystems/mass/flops_based/vertical_tail.py:69 -/
noncomputable def J_verticaltail_mass__verticaltail_area (verticaltail_num_tails verticaltail_area verticaltail_taper_ratio verticaltail_mass_scaler design_gross_mass : ℝ) : ℝ :=
  if 0 < verticaltail_area then (((((verticaltail_mass_scaler * (34 / 125)) * (gross_weight_exp
    design_gross_mass)) * (verticaltail_taper_ratio + (1 / 2))) * (verticaltail_area ^ ((-(3 /
    20)) : ℝ))) * (num_tails_exp verticaltail_num_tails)) else 0

/-- Partial of `verticaltail_mass` with respect to `design_gross_mass` as set by `VerticalTailMass`, aviary/subsystems/mass/flops_based/vertical_tail.py:71 -/
noncomputable def J_verticaltail_mass__design_gross_mass (verticaltail_num_tails verticaltail_area verticaltail_taper_ratio verticaltail_mass_scaler design_gross_mass : ℝ) : ℝ :=
  ((((verticaltail_mass_scaler * (12 / 125)) * (design_gross_mass ^ ((-(7 / 10)) : ℝ))) *
    (verticaltail_taper_ratio + (1 / 2))) * (area_exp verticaltail_area)) * (num_tails_exp
    verticaltail_num_tails)

/-- Partial of `verticaltail_mass` with respect to `verticaltail_taper_ratio` as set by `VerticalTailMass`, aviary/subsystems/mass/flops_based/vertical_tail.py:75 -/
noncomputable def J_verticaltail_mass__verticaltail_taper_ratio (verticaltail_num_tails verticaltail_area verticaltail_mass_scaler design_gross_mass : ℝ) : ℝ :=
  (((verticaltail_mass_scaler * (8 / 25)) * (gross_weight_exp design_gross_mass)) * (area_exp
    verticaltail_area)) * (num_tails_exp verticaltail_num_tails)

/-- Partial of `verticaltail_mass` with respect to `verticaltail_mass_scaler` as set by `VerticalTailMass`, aviary/subsystems/mass/flops_based/vertical_tail.py:79 -/
noncomputable def J_verticaltail_mass__verticaltail_mass_scaler (verticaltail_num_tails verticaltail_area verticaltail_taper_ratio design_gross_mass : ℝ) : ℝ :=
  ((((8 / 25) * (gross_weight_exp design_gross_mass)) * (verticaltail_taper_ratio + (1 / 2))) *
    (area_exp verticaltail_area)) * (num_tails_exp verticaltail_num_tails)

theorem d_verticaltail_mass__verticaltail_area (verticaltail_num_tails verticaltail_area
    verticaltail_taper_ratio verticaltail_mass_scaler design_gross_mass : ℝ) (h0 : 0 <
    design_gross_mass) (h1 : 0 < verticaltail_area) (h2 : 0 < verticaltail_num_tails) (h3 :
    verticaltail_area ≠ 0) :
    HasDerivAt (fun t => out_verticaltail_mass verticaltail_num_tails t verticaltail_taper_ratio verticaltail_mass_scaler design_gross_mass) (J_verticaltail_mass__verticaltail_area verticaltail_num_tails verticaltail_area verticaltail_taper_ratio verticaltail_mass_scaler design_gross_mass) verticaltail_area := by
  have e0 : ∀ x : ℝ, 0 < x → x ^ ((-(3 / 20)) : ℝ) = x ^ ((17 / 20) : ℝ) / x ^ 1 := fun x hx => rpow_down hx 1 (by norm_num)
  have e1 : ∀ x : ℝ, 0 < x → x ^ ((7 / 10) : ℝ) = x ^ 1 / x ^ ((3 / 10) : ℝ) := fun x hx => rpow_comp hx 1 (by norm_num)
  simp only [out_verticaltail_mass, J_verticaltail_mass__verticaltail_area, num_tails_exp, gross_weight_exp]
  try split_ifs
  all_goals (apply hasDerivAt_of_eq; on_goal 1 => (repeat' comp_step))
  all_goals try comp_side
  all_goals try simp (disch := first | assumption | positivity) only [e0, e1]
  all_goals try split_ifs
  all_goals try (exfalso; linarith)
  all_goals try simp only [mul_zero, zero_mul, add_zero, zero_add, sub_zero, zero_sub, mul_one, one_mul]
  all_goals try push_cast
  all_goals comp_eq

theorem d_verticaltail_mass__verticaltail_taper_ratio (verticaltail_num_tails verticaltail_area
    verticaltail_taper_ratio verticaltail_mass_scaler design_gross_mass : ℝ) (h0 : 0 <
    design_gross_mass) (h1 : 0 < verticaltail_area) (h2 : 0 < verticaltail_num_tails) :
    HasDerivAt (fun t => out_verticaltail_mass verticaltail_num_tails verticaltail_area t verticaltail_mass_scaler design_gross_mass) (J_verticaltail_mass__verticaltail_taper_ratio verticaltail_num_tails verticaltail_area verticaltail_mass_scaler design_gross_mass) verticaltail_taper_ratio := by
  have e0 : ∀ x : ℝ, 0 < x → x ^ ((7 / 10) : ℝ) = x ^ 1 / x ^ ((3 / 10) : ℝ) := fun x hx => rpow_comp hx 1 (by norm_num)
  simp only [out_verticaltail_mass, J_verticaltail_mass__verticaltail_taper_ratio, num_tails_exp, area_exp, gross_weight_exp]
  (apply hasDerivAt_of_eq; on_goal 1 => (repeat' comp_step))
  all_goals try comp_side
  all_goals try simp (disch := first | assumption | positivity) only [e0]
  all_goals try simp only [mul_zero, zero_mul, add_zero, zero_add, sub_zero, zero_sub, mul_one, one_mul]
  all_goals try push_cast
  all_goals comp_eq

theorem d_verticaltail_mass__verticaltail_mass_scaler (verticaltail_num_tails verticaltail_area
    verticaltail_taper_ratio verticaltail_mass_scaler design_gross_mass : ℝ) (h0 : 0 <
    design_gross_mass) (h1 : 0 < verticaltail_area) (h2 : 0 < verticaltail_num_tails) :
    HasDerivAt (fun t => out_verticaltail_mass verticaltail_num_tails verticaltail_area verticaltail_taper_ratio t design_gross_mass) (J_verticaltail_mass__verticaltail_mass_scaler verticaltail_num_tails verticaltail_area verticaltail_taper_ratio design_gross_mass) verticaltail_mass_scaler := by
  have e0 : ∀ x : ℝ, 0 < x → x ^ ((7 / 10) : ℝ) = x ^ 1 / x ^ ((3 / 10) : ℝ) := fun x hx => rpow_comp hx 1 (by norm_num)
  simp only [out_verticaltail_mass, J_verticaltail_mass__verticaltail_mass_scaler, num_tails_exp, area_exp, gross_weight_exp]
  (apply hasDerivAt_of_eq; on_goal 1 => (repeat' comp_step))
  all_goals try comp_side
  all_goals try simp (disch := first | assumption | positivity) only [e0]
  all_goals try simp only [mul_zero, zero_mul, add_zero, zero_add, sub_zero, zero_sub, mul_one, one_mul]
  all_goals try push_cast
  all_goals comp_eq

theorem d_verticaltail_mass__design_gross_mass (verticaltail_num_tails verticaltail_area
    verticaltail_taper_ratio verticaltail_mass_scaler design_gross_mass : ℝ) (h0 : 0 <
    design_gross_mass) (h1 : 0 < verticaltail_area) (h2 : 0 < verticaltail_num_tails) :
    HasDerivAt (fun t => out_verticaltail_mass verticaltail_num_tails verticaltail_area verticaltail_taper_ratio verticaltail_mass_scaler t) (J_verticaltail_mass__design_gross_mass verticaltail_num_tails verticaltail_area verticaltail_taper_ratio verticaltail_mass_scaler design_gross_mass) design_gross_mass := by
  have e0 : ∀ x : ℝ, 0 < x → x ^ ((-(7 / 10)) : ℝ) = x ^ ((3 / 10) : ℝ) / x ^ 1 := fun x hx => rpow_down hx 1 (by norm_num)
  have e1 : ∀ x : ℝ, 0 < x → x ^ ((7 / 10) : ℝ) = x ^ 1 / x ^ ((3 / 10) : ℝ) := fun x hx => rpow_comp hx 1 (by norm_num)
  simp only [out_verticaltail_mass, J_verticaltail_mass__design_gross_mass, num_tails_exp, area_exp]
  (apply hasDerivAt_of_eq; on_goal 1 => (repeat' comp_step))
  all_goals try comp_side
  all_goals try simp (disch := first | assumption | positivity) only [e0, e1]
  all_goals try simp only [mul_zero, zero_mul, add_zero, zero_add, sub_zero, zero_sub, mul_one, one_mul]
  all_goals try push_cast
  all_goals comp_eq

/-- Every partial derivative set by `VerticalTailMass` is the derivative of its output. -/
theorem partials (verticaltail_num_tails verticaltail_area verticaltail_taper_ratio
    verticaltail_mass_scaler design_gross_mass : ℝ) (h0 : 0 < design_gross_mass) (h1 : 0 <
    verticaltail_area) (h2 : 0 < verticaltail_num_tails) (h3 : verticaltail_area ≠ 0) :
    HasDerivAt (fun t => out_verticaltail_mass verticaltail_num_tails t verticaltail_taper_ratio
      verticaltail_mass_scaler design_gross_mass) (J_verticaltail_mass__verticaltail_area
      verticaltail_num_tails verticaltail_area verticaltail_taper_ratio verticaltail_mass_scaler
      design_gross_mass) verticaltail_area ∧
    HasDerivAt (fun t => out_verticaltail_mass verticaltail_num_tails verticaltail_area t
      verticaltail_mass_scaler design_gross_mass) (J_verticaltail_mass__verticaltail_taper_ratio
      verticaltail_num_tails verticaltail_area verticaltail_mass_scaler design_gross_mass)
      verticaltail_taper_ratio ∧
    HasDerivAt (fun t => out_verticaltail_mass verticaltail_num_tails verticaltail_area
      verticaltail_taper_ratio t design_gross_mass) (J_verticaltail_mass__verticaltail_mass_scaler
      verticaltail_num_tails verticaltail_area verticaltail_taper_ratio design_gross_mass)
      verticaltail_mass_scaler ∧
    HasDerivAt (fun t => out_verticaltail_mass verticaltail_num_tails verticaltail_area
      verticaltail_taper_ratio verticaltail_mass_scaler t) (J_verticaltail_mass__design_gross_mass
      verticaltail_num_tails verticaltail_area verticaltail_taper_ratio verticaltail_mass_scaler
      design_gross_mass) design_gross_mass :=
  ⟨d_verticaltail_mass__verticaltail_area _ _ _ _ _ h0 h1 h2 h3,
    d_verticaltail_mass__verticaltail_taper_ratio _ _ _ _ _ h0 h1 h2,
    d_verticaltail_mass__verticaltail_mass_scaler _ _ _ _ _ h0 h1 h2,
    d_verticaltail_mass__design_gross_mass _ _ _ _ _ h0 h1 h2⟩

example : ∃ verticaltail_num_tails verticaltail_area verticaltail_taper_ratio
      verticaltail_mass_scaler design_gross_mass : ℝ,
      0 < design_gross_mass ∧
      0 < verticaltail_area ∧
      0 < verticaltail_num_tails ∧
      verticaltail_area ≠ 0 :=
  ⟨1, 1, 0, 0, 1, by comp_example, by comp_example, by comp_example, by comp_example⟩

end Verif.Comp.MassFlopsBasedVerticalTail.VerticalTailMass

