import Verif.Lemmas.CompDeriv

/-! # Partial derivatives of the components of `aviary/subsystems/mass/flops_based/canard.py`

One node of a vector component is modelled over the real numbers.  Each option that selects a
branch is fixed, one namespace per choice.  `out_x` is the output `x`, `J_x__y` the entry that
`compute_partials` (or `declare_partials` with `val`) assigns, `d_x__y` the proof that the entry is
the derivative.  Inputs an output does not take as argument have no influence on it. -/

set_option linter.all false

namespace Verif.Comp.MassFlopsBasedCanard.CanardMass
open Real

/-- aviary/subsystems/mass/flops_based/canard.py:30 -/
noncomputable def canard_weight (design_gross_mass canard_area canard_taper_ratio : ℝ) : ℝ :=
  (((53 / 100) * canard_area) * (design_gross_mass ^ ((1 / 5) : ℝ))) * (canard_taper_ratio + (1
    / 2))

/-- aviary/subsystems/mass/flops_based/canard.py:41 -/
noncomputable def gross_weight_exp (design_gross_mass : ℝ) : ℝ := design_gross_mass ^ ((1 / 5) : ℝ)

/-- Output `canard_mass` of `CanardMass.compute`, aviary/subsystems/mass/flops_based/canard.py:31 -/
noncomputable def out_canard_mass (design_gross_mass canard_area canard_taper_ratio canard_mass_scaler : ℝ) : ℝ :=
  (canard_weight design_gross_mass canard_area canard_taper_ratio) * canard_mass_scaler

/-- Partial of `canard_mass` with respect to `canard_area` as set by `CanardMass`, aviary/subsystems/mass/flops_based/canard.py:43 -/
noncomputable def J_canard_mass__canard_area (design_gross_mass canard_taper_ratio canard_mass_scaler : ℝ) : ℝ :=
  (((53 / 100) * canard_mass_scaler) * (canard_taper_ratio + (1 / 2))) * (gross_weight_exp
    design_gross_mass)

/-- Partial of `canard_mass` with respect to `canard_taper_ratio` as set by `CanardMass`, aviary/subsystems/mass/flops_based/canard.py:47 -/
noncomputable def J_canard_mass__canard_taper_ratio (design_gross_mass canard_area canard_mass_scaler : ℝ) : ℝ :=
  (((53 / 100) * canard_area) * canard_mass_scaler) * (gross_weight_exp design_gross_mass)

/-- Partial of `canard_mass` with respect to `canard_mass_scaler` as set by `CanardMass`, aviary/subsystems/mass/flops_based/canard.py:51 -/
noncomputable def J_canard_mass__canard_mass_scaler (design_gross_mass canard_area canard_taper_ratio : ℝ) : ℝ :=
  (((53 / 100) * canard_area) * (canard_taper_ratio + (1 / 2))) * (gross_weight_exp
    design_gross_mass)

/-- Partial of `canard_mass` with respect to `design_gross_mass` as set by `CanardMass`, aviary/subsystems/mass/flops_based/canard.py:55 -/
noncomputable def J_canard_mass__design_gross_mass (design_gross_mass canard_area canard_taper_ratio canard_mass_scaler : ℝ) : ℝ :=
  ((((53 / 500) * canard_area) * canard_mass_scaler) * (canard_taper_ratio + (1 / 2))) /
    (design_gross_mass ^ ((4 / 5) : ℝ))

theorem d_canard_mass__design_gross_mass (design_gross_mass canard_area canard_taper_ratio
    canard_mass_scaler : ℝ) (h0 : 0 < design_gross_mass) :
    HasDerivAt (fun t => out_canard_mass t canard_area canard_taper_ratio canard_mass_scaler) (J_canard_mass__design_gross_mass design_gross_mass canard_area canard_taper_ratio canard_mass_scaler) design_gross_mass := by
  have e0 : ∀ x : ℝ, 0 < x → x ^ ((4 / 5) : ℝ) = x ^ 1 / x ^ ((1 / 5) : ℝ) := fun x hx => rpow_comp hx 1 (by norm_num)
  simp only [out_canard_mass, J_canard_mass__design_gross_mass, canard_weight]
  (apply hasDerivAt_of_eq; on_goal 1 => (repeat' comp_step))
  all_goals try comp_side
  all_goals try simp (disch := first | assumption | positivity) only [e0]
  all_goals try simp only [mul_zero, zero_mul, add_zero, zero_add, sub_zero, zero_sub, mul_one, one_mul]
  all_goals try push_cast
  all_goals comp_eq

theorem d_canard_mass__canard_area (design_gross_mass canard_area canard_taper_ratio
    canard_mass_scaler : ℝ) (h0 : 0 < design_gross_mass) :
    HasDerivAt (fun t => out_canard_mass design_gross_mass t canard_taper_ratio canard_mass_scaler) (J_canard_mass__canard_area design_gross_mass canard_taper_ratio canard_mass_scaler) canard_area := by
  simp only [out_canard_mass, J_canard_mass__canard_area, gross_weight_exp, canard_weight]
  (apply hasDerivAt_of_eq; on_goal 1 => (repeat' comp_step))
  all_goals try comp_side
  all_goals try simp only [mul_zero, zero_mul, add_zero, zero_add, sub_zero, zero_sub, mul_one, one_mul]
  all_goals try push_cast
  all_goals comp_eq

theorem d_canard_mass__canard_taper_ratio (design_gross_mass canard_area canard_taper_ratio
    canard_mass_scaler : ℝ) (h0 : 0 < design_gross_mass) :
    HasDerivAt (fun t => out_canard_mass design_gross_mass canard_area t canard_mass_scaler) (J_canard_mass__canard_taper_ratio design_gross_mass canard_area canard_mass_scaler) canard_taper_ratio := by
  simp only [out_canard_mass, J_canard_mass__canard_taper_ratio, gross_weight_exp, canard_weight]
  (apply hasDerivAt_of_eq; on_goal 1 => (repeat' comp_step))
  all_goals try comp_side
  all_goals try simp only [mul_zero, zero_mul, add_zero, zero_add, sub_zero, zero_sub, mul_one, one_mul]
  all_goals try push_cast
  all_goals comp_eq

theorem d_canard_mass__canard_mass_scaler (design_gross_mass canard_area canard_taper_ratio
    canard_mass_scaler : ℝ) (h0 : 0 < design_gross_mass) :
    HasDerivAt (fun t => out_canard_mass design_gross_mass canard_area canard_taper_ratio t) (J_canard_mass__canard_mass_scaler design_gross_mass canard_area canard_taper_ratio) canard_mass_scaler := by
  simp only [out_canard_mass, J_canard_mass__canard_mass_scaler, gross_weight_exp, canard_weight]
  (apply hasDerivAt_of_eq; on_goal 1 => (repeat' comp_step))
  all_goals try comp_side
  all_goals try simp only [mul_zero, zero_mul, add_zero, zero_add, sub_zero, zero_sub, mul_one, one_mul]
  all_goals try push_cast
  all_goals comp_eq

/-- Every partial derivative set by `CanardMass` is the derivative of its output. -/
theorem partials (design_gross_mass canard_area canard_taper_ratio canard_mass_scaler : ℝ) (h0 : 0
    < design_gross_mass) :
    HasDerivAt (fun t => out_canard_mass t canard_area canard_taper_ratio canard_mass_scaler)
      (J_canard_mass__design_gross_mass design_gross_mass canard_area canard_taper_ratio
      canard_mass_scaler) design_gross_mass ∧
    HasDerivAt (fun t => out_canard_mass design_gross_mass t canard_taper_ratio canard_mass_scaler)
      (J_canard_mass__canard_area design_gross_mass canard_taper_ratio canard_mass_scaler)
      canard_area ∧
    HasDerivAt (fun t => out_canard_mass design_gross_mass canard_area t canard_mass_scaler)
      (J_canard_mass__canard_taper_ratio design_gross_mass canard_area canard_mass_scaler)
      canard_taper_ratio ∧
    HasDerivAt (fun t => out_canard_mass design_gross_mass canard_area canard_taper_ratio t)
      (J_canard_mass__canard_mass_scaler design_gross_mass canard_area canard_taper_ratio)
      canard_mass_scaler :=
  ⟨d_canard_mass__design_gross_mass _ _ _ _ h0, d_canard_mass__canard_area _ _ _ _ h0,
    d_canard_mass__canard_taper_ratio _ _ _ _ h0, d_canard_mass__canard_mass_scaler _ _ _ _ h0⟩

example : ∃ design_gross_mass canard_area canard_taper_ratio canard_mass_scaler : ℝ,
      0 < design_gross_mass :=
  ⟨1, 0, 0, 0, by comp_example⟩

end Verif.Comp.MassFlopsBasedCanard.CanardMass

