import Verif.Lemmas.CompDeriv

/-! # Partial derivatives of the components of `aviary/subsystems/mass/flops_based/paint.py`

One node of a vector component is modelled over the real numbers.  Each option that selects a
branch is fixed, one namespace per choice.  `out_x` is the output `x`, `J_x__y` the entry that
`compute_partials` (or `declare_partials` with `val`) assigns, `d_x__y` the proof that the entry is
the derivative.  Inputs an output does not take as argument have no influence on it. -/

set_option linter.all false

namespace Verif.Comp.MassFlopsBasedPaint.PaintMass
open Real

/-- Output `paint_mass` of `PaintMass.compute`, aviary/subsystems/mass/flops_based/paint.py:23 -/
noncomputable def out_paint_mass (design_total_wetted_area paint_mass_per_unit_area : ℝ) : ℝ :=
  design_total_wetted_area * paint_mass_per_unit_area

/-- Partial of `paint_mass` with respect to `design_total_wetted_area` as set by `PaintMass`, aviary/subsystems/mass/flops_based/paint.py:29 -/
noncomputable def J_paint_mass__design_total_wetted_area (paint_mass_per_unit_area : ℝ) : ℝ :=
  paint_mass_per_unit_area

/-- Partial of `paint_mass` with respect to `paint_mass_per_unit_area` as set by `PaintMass`, aviary/subsystems/mass/flops_based/paint.py:31 -/
noncomputable def J_paint_mass__paint_mass_per_unit_area (design_total_wetted_area : ℝ) : ℝ :=
  design_total_wetted_area

theorem d_paint_mass__design_total_wetted_area (design_total_wetted_area paint_mass_per_unit_area
    : ℝ)  :
    HasDerivAt (fun t => out_paint_mass t paint_mass_per_unit_area) (J_paint_mass__design_total_wetted_area paint_mass_per_unit_area) design_total_wetted_area := by
  simp only [out_paint_mass, J_paint_mass__design_total_wetted_area]
  (apply hasDerivAt_of_eq; on_goal 1 => (repeat' comp_step))
  all_goals try comp_side
  all_goals try simp only [mul_zero, zero_mul, add_zero, zero_add, sub_zero, zero_sub, mul_one, one_mul]
  all_goals try push_cast
  all_goals comp_eq

theorem d_paint_mass__paint_mass_per_unit_area (design_total_wetted_area paint_mass_per_unit_area
    : ℝ)  :
    HasDerivAt (fun t => out_paint_mass design_total_wetted_area t) (J_paint_mass__paint_mass_per_unit_area design_total_wetted_area) paint_mass_per_unit_area := by
  simp only [out_paint_mass, J_paint_mass__paint_mass_per_unit_area]
  (apply hasDerivAt_of_eq; on_goal 1 => (repeat' comp_step))
  all_goals try comp_side
  all_goals try simp only [mul_zero, zero_mul, add_zero, zero_add, sub_zero, zero_sub, mul_one, one_mul]
  all_goals try push_cast
  all_goals comp_eq

/-- Every partial derivative set by `PaintMass` is the derivative of its output. -/
theorem partials (design_total_wetted_area paint_mass_per_unit_area : ℝ) :
    HasDerivAt (fun t => out_paint_mass t paint_mass_per_unit_area)
      (J_paint_mass__design_total_wetted_area paint_mass_per_unit_area) design_total_wetted_area ∧
    HasDerivAt (fun t => out_paint_mass design_total_wetted_area t)
      (J_paint_mass__paint_mass_per_unit_area design_total_wetted_area) paint_mass_per_unit_area :=
  ⟨d_paint_mass__design_total_wetted_area _ _, d_paint_mass__paint_mass_per_unit_area _ _⟩

end Verif.Comp.MassFlopsBasedPaint.PaintMass

