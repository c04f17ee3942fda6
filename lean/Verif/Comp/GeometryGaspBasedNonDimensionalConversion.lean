import Verif.Lemmas.CompDeriv

/-! # Partial derivatives of the components of `aviary/subsystems/geometry/gasp_based/non_dimensional_conversion.py`

One node of a vector component is modelled over the real numbers.  Each option that selects a
branch is fixed, one namespace per choice.  `out_x` is the output `x`, `J_x__y` the entry that
`compute_partials` (or `declare_partials` with `val`) assigns, `d_x__y` the proof that the entry is
the derivative.  Inputs an output does not take as argument have no influence on it. -/

set_option linter.all false

namespace Verif.Comp.GeometryGaspBasedNonDimensionalConversion.FoldCalcs_wingfolddimensionallocationspecified
open Real

/-- Output `wing_folded_span_dimensionless` of `FoldCalcs.compute`, aviary/subsystems/geometry/gasp_based/non_dimensional_conversion.py:103 -/
noncomputable def out_wing_folded_span_dimensionless (wing_span wing_folded_span : ℝ) : ℝ :=
  wing_folded_span / wing_span

/-- Partial of `wing_folded_span_dimensionless` with respect to `wing_folded_span` as set by `FoldCalcs`, aviary/subsystems/geometry/gasp_based/non_dimensional_conversion.py:113 -/
noncomputable def J_wing_folded_span_dimensionless__wing_folded_span (wing_span : ℝ) : ℝ :=
  1 / wing_span

/-- Partial of `wing_folded_span_dimensionless` with respect to `wing_span` as set by `FoldCalcs`, aviary/subsystems/geometry/gasp_based/non_dimensional_conversion.py:114 -/
noncomputable def J_wing_folded_span_dimensionless__wing_span (wing_span wing_folded_span : ℝ) : ℝ :=
  (-wing_folded_span) / (wing_span ^ 2)

theorem d_wing_folded_span_dimensionless__wing_span (wing_span wing_folded_span : ℝ) (h0 : 0 <
    wing_span) :
    HasDerivAt (fun t => out_wing_folded_span_dimensionless t wing_folded_span) (J_wing_folded_span_dimensionless__wing_span wing_span wing_folded_span) wing_span := by
  simp only [out_wing_folded_span_dimensionless, J_wing_folded_span_dimensionless__wing_span]
  (apply hasDerivAt_of_eq; on_goal 1 => (repeat' comp_step))
  all_goals try comp_side
  all_goals try simp only [mul_zero, zero_mul, add_zero, zero_add, sub_zero, zero_sub, mul_one, one_mul]
  all_goals try push_cast
  all_goals comp_eq

theorem d_wing_folded_span_dimensionless__wing_folded_span (wing_span wing_folded_span : ℝ) (h0 :
    0 < wing_span) :
    HasDerivAt (fun t => out_wing_folded_span_dimensionless wing_span t) (J_wing_folded_span_dimensionless__wing_folded_span wing_span) wing_folded_span := by
  simp only [out_wing_folded_span_dimensionless, J_wing_folded_span_dimensionless__wing_folded_span]
  (apply hasDerivAt_of_eq; on_goal 1 => (repeat' comp_step))
  all_goals try comp_side
  all_goals try simp only [mul_zero, zero_mul, add_zero, zero_add, sub_zero, zero_sub, mul_one, one_mul]
  all_goals try push_cast
  all_goals comp_eq

/-- Every partial derivative set by `FoldCalcs` is the derivative of its output. -/
theorem partials (wing_span wing_folded_span : ℝ) (h0 : 0 < wing_span) :
    HasDerivAt (fun t => out_wing_folded_span_dimensionless t wing_folded_span)
      (J_wing_folded_span_dimensionless__wing_span wing_span wing_folded_span) wing_span ∧
    HasDerivAt (fun t => out_wing_folded_span_dimensionless wing_span t)
      (J_wing_folded_span_dimensionless__wing_folded_span wing_span) wing_folded_span :=
  ⟨d_wing_folded_span_dimensionless__wing_span _ _ h0,
    d_wing_folded_span_dimensionless__wing_folded_span _ _ h0⟩

example : ∃ wing_span wing_folded_span : ℝ,
      0 < wing_span :=
  ⟨1, 0, by comp_example⟩

end Verif.Comp.GeometryGaspBasedNonDimensionalConversion.FoldCalcs_wingfolddimensionallocationspecified

namespace Verif.Comp.GeometryGaspBasedNonDimensionalConversion.FoldCalcs_no_wingfolddimensionallocationspecified
open Real

/-- Output `wing_folded_span` of `FoldCalcs.compute`, aviary/subsystems/geometry/gasp_based/non_dimensional_conversion.py:106 -/
noncomputable def out_wing_folded_span (wing_span wing_folded_span_dimensionless : ℝ) : ℝ :=
  wing_folded_span_dimensionless * wing_span

/-- Partial of `wing_folded_span` with respect to `wing_folded_span_dimensionless` as set by `FoldCalcs`, aviary/subsystems/geometry/gasp_based/non_dimensional_conversion.py:118 -/
noncomputable def J_wing_folded_span__wing_folded_span_dimensionless (wing_span : ℝ) : ℝ :=
  wing_span

/-- Partial of `wing_folded_span` with respect to `wing_span` as set by `FoldCalcs`, aviary/subsystems/geometry/gasp_based/non_dimensional_conversion.py:119 -/
noncomputable def J_wing_folded_span__wing_span (wing_folded_span_dimensionless : ℝ) : ℝ :=
  wing_folded_span_dimensionless

theorem d_wing_folded_span__wing_span (wing_span wing_folded_span_dimensionless : ℝ)  :
    HasDerivAt (fun t => out_wing_folded_span t wing_folded_span_dimensionless) (J_wing_folded_span__wing_span wing_folded_span_dimensionless) wing_span := by
  simp only [out_wing_folded_span, J_wing_folded_span__wing_span]
  (apply hasDerivAt_of_eq; on_goal 1 => (repeat' comp_step))
  all_goals try comp_side
  all_goals try simp only [mul_zero, zero_mul, add_zero, zero_add, sub_zero, zero_sub, mul_one, one_mul]
  all_goals try push_cast
  all_goals comp_eq

theorem d_wing_folded_span__wing_folded_span_dimensionless (wing_span
    wing_folded_span_dimensionless : ℝ)  :
    HasDerivAt (fun t => out_wing_folded_span wing_span t) (J_wing_folded_span__wing_folded_span_dimensionless wing_span) wing_folded_span_dimensionless := by
  simp only [out_wing_folded_span, J_wing_folded_span__wing_folded_span_dimensionless]
  (apply hasDerivAt_of_eq; on_goal 1 => (repeat' comp_step))
  all_goals try comp_side
  all_goals try simp only [mul_zero, zero_mul, add_zero, zero_add, sub_zero, zero_sub, mul_one, one_mul]
  all_goals try push_cast
  all_goals comp_eq

/-- Every partial derivative set by `FoldCalcs` is the derivative of its output. -/
theorem partials (wing_span wing_folded_span_dimensionless : ℝ) :
    HasDerivAt (fun t => out_wing_folded_span t wing_folded_span_dimensionless)
      (J_wing_folded_span__wing_span wing_folded_span_dimensionless) wing_span ∧
    HasDerivAt (fun t => out_wing_folded_span wing_span t)
      (J_wing_folded_span__wing_folded_span_dimensionless wing_span)
      wing_folded_span_dimensionless :=
  ⟨d_wing_folded_span__wing_span _ _, d_wing_folded_span__wing_folded_span_dimensionless _ _⟩

end Verif.Comp.GeometryGaspBasedNonDimensionalConversion.FoldCalcs_no_wingfolddimensionallocationspecified

namespace Verif.Comp.GeometryGaspBasedNonDimensionalConversion.StrutCalcs_strutdimensionallocationspecified_winghasstrut
open Real

/-- Output `strut_attachment_location_dimensionless` of `StrutCalcs.compute`, aviary/subsystems/geometry/gasp_based/non_dimensional_conversion.py:47 -/
noncomputable def out_strut_attachment_location_dimensionless (wing_span strut_attachment_location : ℝ) : ℝ :=
  strut_attachment_location / wing_span

/-- Partial of `strut_attachment_location_dimensionless` with respect to `strut_attachment_location` as set by `StrutCalcs`, aviary/subsystems/geometry/gasp_based/non_dimensional_conversion.py:58 -/
noncomputable def J_strut_attachment_location_dimensionless__strut_attachment_location (wing_span : ℝ) : ℝ :=
  1 / wing_span

/-- Partial of `strut_attachment_location_dimensionless` with respect to `wing_span` as set by `StrutCalcs`, aviary/subsystems/geometry/gasp_based/non_dimensional_conversion.py:59 -/
noncomputable def J_strut_attachment_location_dimensionless__wing_span (wing_span strut_attachment_location : ℝ) : ℝ :=
  (-strut_attachment_location) / (wing_span ^ 2)

theorem d_strut_attachment_location_dimensionless__wing_span (wing_span strut_attachment_location
    : ℝ) (h0 : 0 < wing_span) :
    HasDerivAt (fun t => out_strut_attachment_location_dimensionless t strut_attachment_location) (J_strut_attachment_location_dimensionless__wing_span wing_span strut_attachment_location) wing_span := by
  simp only [out_strut_attachment_location_dimensionless, J_strut_attachment_location_dimensionless__wing_span]
  (apply hasDerivAt_of_eq; on_goal 1 => (repeat' comp_step))
  all_goals try comp_side
  all_goals try simp only [mul_zero, zero_mul, add_zero, zero_add, sub_zero, zero_sub, mul_one, one_mul]
  all_goals try push_cast
  all_goals comp_eq

theorem d_strut_attachment_location_dimensionless__strut_attachment_location (wing_span
    strut_attachment_location : ℝ) (h0 : 0 < wing_span) :
    HasDerivAt (fun t => out_strut_attachment_location_dimensionless wing_span t) (J_strut_attachment_location_dimensionless__strut_attachment_location wing_span) strut_attachment_location := by
  simp only [out_strut_attachment_location_dimensionless, J_strut_attachment_location_dimensionless__strut_attachment_location]
  (apply hasDerivAt_of_eq; on_goal 1 => (repeat' comp_step))
  all_goals try comp_side
  all_goals try simp only [mul_zero, zero_mul, add_zero, zero_add, sub_zero, zero_sub, mul_one, one_mul]
  all_goals try push_cast
  all_goals comp_eq

/-- Every partial derivative set by `StrutCalcs` is the derivative of its output. -/
theorem partials (wing_span strut_attachment_location : ℝ) (h0 : 0 < wing_span) :
    HasDerivAt (fun t => out_strut_attachment_location_dimensionless t strut_attachment_location)
      (J_strut_attachment_location_dimensionless__wing_span wing_span strut_attachment_location)
      wing_span ∧
    HasDerivAt (fun t => out_strut_attachment_location_dimensionless wing_span t)
      (J_strut_attachment_location_dimensionless__strut_attachment_location wing_span)
      strut_attachment_location :=
  ⟨d_strut_attachment_location_dimensionless__wing_span _ _ h0,
    d_strut_attachment_location_dimensionless__strut_attachment_location _ _ h0⟩

example : ∃ wing_span strut_attachment_location : ℝ,
      0 < wing_span :=
  ⟨1, 0, by comp_example⟩

end Verif.Comp.GeometryGaspBasedNonDimensionalConversion.StrutCalcs_strutdimensionallocationspecified_winghasstrut

namespace Verif.Comp.GeometryGaspBasedNonDimensionalConversion.StrutCalcs_no_strutdimensionallocationspecified_winghasstrut
open Real

/-- Output `strut_attachment_location` of `StrutCalcs.compute`, aviary/subsystems/geometry/gasp_based/non_dimensional_conversion.py:50 -/
noncomputable def out_strut_attachment_location (wing_span strut_attachment_location_dimensionless : ℝ) : ℝ :=
  strut_attachment_location_dimensionless * wing_span

/-- Partial of `strut_attachment_location` with respect to `strut_attachment_location_dimensionless` as set by `StrutCalcs`, aviary/subsystems/geometry/gasp_based/non_dimensional_conversion.py:63 -/
noncomputable def J_strut_attachment_location__strut_attachment_location_dimensionless (wing_span : ℝ) : ℝ :=
  wing_span

/-- Partial of `strut_attachment_location` with respect to `wing_span` as set by `StrutCalcs`, aviary/subsystems/geometry/gasp_based/non_dimensional_conversion.py:64 -/
noncomputable def J_strut_attachment_location__wing_span (strut_attachment_location_dimensionless : ℝ) : ℝ :=
  strut_attachment_location_dimensionless

theorem d_strut_attachment_location__wing_span (wing_span strut_attachment_location_dimensionless
    : ℝ)  :
    HasDerivAt (fun t => out_strut_attachment_location t strut_attachment_location_dimensionless) (J_strut_attachment_location__wing_span strut_attachment_location_dimensionless) wing_span := by
  simp only [out_strut_attachment_location, J_strut_attachment_location__wing_span]
  (apply hasDerivAt_of_eq; on_goal 1 => (repeat' comp_step))
  all_goals try comp_side
  all_goals try simp only [mul_zero, zero_mul, add_zero, zero_add, sub_zero, zero_sub, mul_one, one_mul]
  all_goals try push_cast
  all_goals comp_eq

theorem d_strut_attachment_location__strut_attachment_location_dimensionless (wing_span
    strut_attachment_location_dimensionless : ℝ)  :
    HasDerivAt (fun t => out_strut_attachment_location wing_span t) (J_strut_attachment_location__strut_attachment_location_dimensionless wing_span) strut_attachment_location_dimensionless := by
  simp only [out_strut_attachment_location, J_strut_attachment_location__strut_attachment_location_dimensionless]
  (apply hasDerivAt_of_eq; on_goal 1 => (repeat' comp_step))
  all_goals try comp_side
  all_goals try simp only [mul_zero, zero_mul, add_zero, zero_add, sub_zero, zero_sub, mul_one, one_mul]
  all_goals try push_cast
  all_goals comp_eq

/-- Every partial derivative set by `StrutCalcs` is the derivative of its output. -/
theorem partials (wing_span strut_attachment_location_dimensionless : ℝ) :
    HasDerivAt (fun t => out_strut_attachment_location t strut_attachment_location_dimensionless)
      (J_strut_attachment_location__wing_span strut_attachment_location_dimensionless) wing_span ∧
    HasDerivAt (fun t => out_strut_attachment_location wing_span t)
      (J_strut_attachment_location__strut_attachment_location_dimensionless wing_span)
      strut_attachment_location_dimensionless :=
  ⟨d_strut_attachment_location__wing_span _ _,
    d_strut_attachment_location__strut_attachment_location_dimensionless _ _⟩

end Verif.Comp.GeometryGaspBasedNonDimensionalConversion.StrutCalcs_no_strutdimensionallocationspecified_winghasstrut

