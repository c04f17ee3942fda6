import Verif.Lemmas.CompDeriv

/-! # Partial derivatives of the components of `aviary/subsystems/mass/flops_based/fin.py`

One node of a vector component is modelled over the real numbers.  Each option that selects a
branch is fixed, one namespace per choice.  `out_x` is the output `x`, `J_x__y` the entry that
`compute_partials` (or `declare_partials` with `val`) assigns, `d_x__y` the proof that the entry is
the derivative.  Inputs an output does not take as argument have no influence on it.

* `FinMass`: line 30: branch that sets no output excluded -/

set_option linter.all false

namespace Verif.Comp.MassFlopsBasedFin.FinMass
open Real

/-- aviary/subsystems/mass/flops_based/fin.py:35 -/
noncomputable def fin_weight (fins_num_fins design_gross_mass fins_area fins_taper_ratio : ℝ) : ℝ :=
  ((((8 / 25) * (design_gross_mass ^ ((3 / 10) : ℝ))) * (fins_area ^ ((17 / 20) : ℝ))) *
    (fins_taper_ratio + (1 / 2))) * fins_num_fins

/-- aviary/subsystems/mass/flops_based/fin.py:48 -/
noncomputable def area_exp (fins_area : ℝ) : ℝ := fins_area ^ ((17 / 20) : ℝ)

/-- aviary/subsystems/mass/flops_based/fin.py:49 -/
noncomputable def gross_weight_exp (design_gross_mass : ℝ) : ℝ := design_gross_mass ^ ((3 / 10) : ℝ)

/-- Output `fins_mass` of `FinMass.compute`, aviary/subsystems/mass/flops_based/fin.py:36 -/
noncomputable def out_fins_mass (fins_num_fins design_gross_mass fins_area fins_taper_ratio fins_mass_scaler : ℝ) : ℝ :=
  (fin_weight fins_num_fins design_gross_mass fins_area fins_taper_ratio) * fins_mass_scaler

/-- Partial of `fins_mass` with respect to `fins_area` as set by `FinMass`, aviary/subsystems/mass/flops_based/fin.py:51 -/
noncomputable def J_fins_mass__fins_area (fins_num_fins design_gross_mass fins_area fins_taper_ratio fins_mass_scaler : ℝ) : ℝ :=
  (((((34 / 125) * fins_num_fins) * fins_mass_scaler) * (fins_taper_ratio + (1 / 2))) *
    (gross_weight_exp design_gross_mass)) / (fins_area ^ ((3 / 20) : ℝ))

/-- Partial of `fins_mass` with respect to `fins_taper_ratio` as set by `FinMass`, aviary/subsystems/mass/flops_based/fin.py:54 -/
noncomputable def J_fins_mass__fins_taper_ratio (fins_num_fins design_gross_mass fins_area fins_mass_scaler : ℝ) : ℝ :=
  ((((8 / 25) * (area_exp fins_area)) * fins_num_fins) * fins_mass_scaler) * (gross_weight_exp
    design_gross_mass)

/-- Partial of `fins_mass` with respect to `fins_mass_scaler` as set by `FinMass`, aviary/subsystems/mass/flops_based/fin.py:57 -/
noncomputable def J_fins_mass__fins_mass_scaler (fins_num_fins design_gross_mass fins_area fins_taper_ratio : ℝ) : ℝ :=
  ((((8 / 25) * (area_exp fins_area)) * fins_num_fins) * (fins_taper_ratio + (1 / 2))) *
    (gross_weight_exp design_gross_mass)

/-- Partial of `fins_mass` with respect to `design_gross_mass` as set by `FinMass`, aviary/subsystems/mass/flops_based/fin.py:65 -/
noncomputable def J_fins_mass__design_gross_mass (fins_num_fins design_gross_mass fins_area fins_taper_ratio fins_mass_scaler : ℝ) : ℝ :=
  (((((12 / 125) * (area_exp fins_area)) * fins_num_fins) * fins_mass_scaler) *
    (fins_taper_ratio + (1 / 2))) / (design_gross_mass ^ ((7 / 10) : ℝ))

theorem d_fins_mass__design_gross_mass (fins_num_fins design_gross_mass fins_area fins_taper_ratio
    fins_mass_scaler : ℝ) (h0 : 0 < fins_num_fins) (h1 : 0 < design_gross_mass) (h2 : 0 <
    fins_area) :
    HasDerivAt (fun t => out_fins_mass fins_num_fins t fins_area fins_taper_ratio fins_mass_scaler) (J_fins_mass__design_gross_mass fins_num_fins design_gross_mass fins_area fins_taper_ratio fins_mass_scaler) design_gross_mass := by
  have e0 : ∀ x : ℝ, 0 < x → x ^ ((7 / 10) : ℝ) = x ^ 1 / x ^ ((3 / 10) : ℝ) := fun x hx => rpow_comp hx 1 (by norm_num)
  simp only [out_fins_mass, J_fins_mass__design_gross_mass, area_exp, fin_weight]
  (apply hasDerivAt_of_eq; on_goal 1 => (repeat' comp_step))
  all_goals try comp_side
  all_goals try simp (disch := first | assumption | positivity) only [e0]
  all_goals try simp only [mul_zero, zero_mul, add_zero, zero_add, sub_zero, zero_sub, mul_one, one_mul]
  all_goals try push_cast
  all_goals comp_eq

theorem d_fins_mass__fins_area (fins_num_fins design_gross_mass fins_area fins_taper_ratio
    fins_mass_scaler : ℝ) (h0 : 0 < fins_num_fins) (h1 : 0 < design_gross_mass) (h2 : 0 <
    fins_area) :
    HasDerivAt (fun t => out_fins_mass fins_num_fins design_gross_mass t fins_taper_ratio fins_mass_scaler) (J_fins_mass__fins_area fins_num_fins design_gross_mass fins_area fins_taper_ratio fins_mass_scaler) fins_area := by
  have e0 : ∀ x : ℝ, 0 < x → x ^ ((3 / 20) : ℝ) = x ^ 1 / x ^ ((17 / 20) : ℝ) := fun x hx => rpow_comp hx 1 (by norm_num)
  simp only [out_fins_mass, J_fins_mass__fins_area, gross_weight_exp, fin_weight]
  (apply hasDerivAt_of_eq; on_goal 1 => (repeat' comp_step))
  all_goals try comp_side
  all_goals try simp (disch := first | assumption | positivity) only [e0]
  all_goals try simp only [mul_zero, zero_mul, add_zero, zero_add, sub_zero, zero_sub, mul_one, one_mul]
  all_goals try push_cast
  all_goals comp_eq

theorem d_fins_mass__fins_taper_ratio (fins_num_fins design_gross_mass fins_area fins_taper_ratio
    fins_mass_scaler : ℝ) (h0 : 0 < fins_num_fins) (h1 : 0 < design_gross_mass) (h2 : 0 <
    fins_area) :
    HasDerivAt (fun t => out_fins_mass fins_num_fins design_gross_mass fins_area t fins_mass_scaler) (J_fins_mass__fins_taper_ratio fins_num_fins design_gross_mass fins_area fins_mass_scaler) fins_taper_ratio := by
  simp only [out_fins_mass, J_fins_mass__fins_taper_ratio, gross_weight_exp, area_exp, fin_weight]
  (apply hasDerivAt_of_eq; on_goal 1 => (repeat' comp_step))
  all_goals try comp_side
  all_goals try simp only [mul_zero, zero_mul, add_zero, zero_add, sub_zero, zero_sub, mul_one, one_mul]
  all_goals try push_cast
  all_goals comp_eq

theorem d_fins_mass__fins_mass_scaler (fins_num_fins design_gross_mass fins_area fins_taper_ratio
    fins_mass_scaler : ℝ) (h0 : 0 < fins_num_fins) (h1 : 0 < design_gross_mass) (h2 : 0 <
    fins_area) :
    HasDerivAt (fun t => out_fins_mass fins_num_fins design_gross_mass fins_area fins_taper_ratio t) (J_fins_mass__fins_mass_scaler fins_num_fins design_gross_mass fins_area fins_taper_ratio) fins_mass_scaler := by
  simp only [out_fins_mass, J_fins_mass__fins_mass_scaler, gross_weight_exp, area_exp, fin_weight]
  (apply hasDerivAt_of_eq; on_goal 1 => (repeat' comp_step))
  all_goals try comp_side
  all_goals try simp only [mul_zero, zero_mul, add_zero, zero_add, sub_zero, zero_sub, mul_one, one_mul]
  all_goals try push_cast
  all_goals comp_eq

/-- Every partial derivative set by `FinMass` is the derivative of its output. -/
theorem partials (fins_num_fins design_gross_mass fins_area fins_taper_ratio fins_mass_scaler : ℝ)
    (h0 : 0 < fins_num_fins) (h1 : 0 < design_gross_mass) (h2 : 0 < fins_area) :
    HasDerivAt (fun t => out_fins_mass fins_num_fins t fins_area fins_taper_ratio fins_mass_scaler)
      (J_fins_mass__design_gross_mass fins_num_fins design_gross_mass fins_area fins_taper_ratio
      fins_mass_scaler) design_gross_mass ∧
    HasDerivAt (fun t => out_fins_mass fins_num_fins design_gross_mass t fins_taper_ratio
      fins_mass_scaler) (J_fins_mass__fins_area fins_num_fins design_gross_mass fins_area
      fins_taper_ratio fins_mass_scaler) fins_area ∧
    HasDerivAt (fun t => out_fins_mass fins_num_fins design_gross_mass fins_area t fins_mass_scaler)
      (J_fins_mass__fins_taper_ratio fins_num_fins design_gross_mass fins_area fins_mass_scaler)
      fins_taper_ratio ∧
    HasDerivAt (fun t => out_fins_mass fins_num_fins design_gross_mass fins_area fins_taper_ratio t)
      (J_fins_mass__fins_mass_scaler fins_num_fins design_gross_mass fins_area fins_taper_ratio)
      fins_mass_scaler :=
  ⟨d_fins_mass__design_gross_mass _ _ _ _ _ h0 h1 h2, d_fins_mass__fins_area _ _ _ _ _ h0 h1 h2,
    d_fins_mass__fins_taper_ratio _ _ _ _ _ h0 h1 h2, d_fins_mass__fins_mass_scaler _ _ _ _ _ h0
    h1 h2⟩

example : ∃ fins_num_fins design_gross_mass fins_area fins_taper_ratio fins_mass_scaler : ℝ,
      0 < fins_num_fins ∧
      0 < design_gross_mass ∧
      0 < fins_area :=
  ⟨1, 1, 1, 1, 1, by comp_example, by comp_example, by comp_example⟩

end Verif.Comp.MassFlopsBasedFin.FinMass

