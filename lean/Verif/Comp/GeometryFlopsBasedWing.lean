import Verif.Lemmas.CompDeriv

/-! # Partial derivatives of the components of `aviary/subsystems/geometry/flops_based/wing.py`

One node of a vector component is modelled over the real numbers.  Each option that selects a
branch is fixed, one namespace per choice.  `out_x` is the output `x`, `J_x__y` the entry that
`compute_partials` (or `declare_partials` with `val`) assigns, `d_x__y` the proof that the entry is
the derivative.  Inputs an output does not take as argument have no influence on it. -/

set_option linter.all false

namespace Verif.Comp.GeometryFlopsBasedWing.WingPrelim
open Real

/-- aviary/subsystems/geometry/flops_based/wing.py:27 -/
noncomputable def ar (wing_area wing_glove_and_bat wing_span : ℝ) : ℝ :=
  (wing_span ^ 2) / (wing_area - wing_glove_and_bat)

/-- aviary/subsystems/geometry/flops_based/wing.py:35 -/
noncomputable def denom (wing_area wing_glove_and_bat : ℝ) : ℝ :=
  1 / (wing_area - wing_glove_and_bat)

/-- Output `wing_aspect_ratio` of `WingPrelim.compute`, aviary/subsystems/geometry/flops_based/wing.py:28 -/
noncomputable def out_wing_aspect_ratio (wing_area wing_glove_and_bat wing_span : ℝ) : ℝ :=
  ar wing_area wing_glove_and_bat wing_span

/-- Partial of `wing_aspect_ratio` with respect to `wing_area` as set by `WingPrelim`, aviary/subsystems/geometry/flops_based/wing.py:37 -/
noncomputable def J_wing_aspect_ratio__wing_area (wing_area wing_glove_and_bat wing_span : ℝ) : ℝ :=
  -((wing_span * (denom wing_area wing_glove_and_bat)) ^ 2)

/-- Partial of `wing_aspect_ratio` with respect to `wing_glove_and_bat` as set by `WingPrelim`, aviary/subsystems/geometry/flops_based/wing.py:39 -/
noncomputable def J_wing_aspect_ratio__wing_glove_and_bat (wing_area wing_glove_and_bat wing_span : ℝ) : ℝ :=
  (wing_span * (denom wing_area wing_glove_and_bat)) ^ 2

/-- Partial of `wing_aspect_ratio` with respect to `wing_span` as set by `WingPrelim`, aviary/subsystems/geometry/flops_based/wing.py:41 -/
noncomputable def J_wing_aspect_ratio__wing_span (wing_area wing_glove_and_bat wing_span : ℝ) : ℝ :=
  (2 * wing_span) * (denom wing_area wing_glove_and_bat)

theorem d_wing_aspect_ratio__wing_area (wing_area wing_glove_and_bat wing_span : ℝ) (h0 :
    wing_area - wing_glove_and_bat ≠ 0) :
    HasDerivAt (fun t => out_wing_aspect_ratio t wing_glove_and_bat wing_span) (J_wing_aspect_ratio__wing_area wing_area wing_glove_and_bat wing_span) wing_area := by
  simp only [out_wing_aspect_ratio, J_wing_aspect_ratio__wing_area, denom, ar]
  (apply hasDerivAt_of_eq; on_goal 1 => (repeat' comp_step))
  all_goals try comp_side
  all_goals try simp only [mul_zero, zero_mul, add_zero, zero_add, sub_zero, zero_sub, mul_one, one_mul]
  all_goals try push_cast
  all_goals comp_eq

theorem d_wing_aspect_ratio__wing_glove_and_bat (wing_area wing_glove_and_bat wing_span : ℝ) (h0 :
    wing_area - wing_glove_and_bat ≠ 0) :
    HasDerivAt (fun t => out_wing_aspect_ratio wing_area t wing_span) (J_wing_aspect_ratio__wing_glove_and_bat wing_area wing_glove_and_bat wing_span) wing_glove_and_bat := by
  simp only [out_wing_aspect_ratio, J_wing_aspect_ratio__wing_glove_and_bat, denom, ar]
  (apply hasDerivAt_of_eq; on_goal 1 => (repeat' comp_step))
  all_goals try comp_side
  all_goals try simp only [mul_zero, zero_mul, add_zero, zero_add, sub_zero, zero_sub, mul_one, one_mul]
  all_goals try push_cast
  all_goals comp_eq

theorem d_wing_aspect_ratio__wing_span (wing_area wing_glove_and_bat wing_span : ℝ) (h0 :
    wing_area - wing_glove_and_bat ≠ 0) :
    HasDerivAt (fun t => out_wing_aspect_ratio wing_area wing_glove_and_bat t) (J_wing_aspect_ratio__wing_span wing_area wing_glove_and_bat wing_span) wing_span := by
  simp only [out_wing_aspect_ratio, J_wing_aspect_ratio__wing_span, denom, ar]
  (apply hasDerivAt_of_eq; on_goal 1 => (repeat' comp_step))
  all_goals try comp_side
  all_goals try simp only [mul_zero, zero_mul, add_zero, zero_add, sub_zero, zero_sub, mul_one, one_mul]
  all_goals try push_cast
  all_goals comp_eq

/-- Every partial derivative set by `WingPrelim` is the derivative of its output. -/
theorem partials (wing_area wing_glove_and_bat wing_span : ℝ) (h0 : wing_area - wing_glove_and_bat
    ≠ 0) :
    HasDerivAt (fun t => out_wing_aspect_ratio t wing_glove_and_bat wing_span)
      (J_wing_aspect_ratio__wing_area wing_area wing_glove_and_bat wing_span) wing_area ∧
    HasDerivAt (fun t => out_wing_aspect_ratio wing_area t wing_span)
      (J_wing_aspect_ratio__wing_glove_and_bat wing_area wing_glove_and_bat wing_span)
      wing_glove_and_bat ∧
    HasDerivAt (fun t => out_wing_aspect_ratio wing_area wing_glove_and_bat t)
      (J_wing_aspect_ratio__wing_span wing_area wing_glove_and_bat wing_span) wing_span :=
  ⟨d_wing_aspect_ratio__wing_area _ _ _ h0, d_wing_aspect_ratio__wing_glove_and_bat _ _ _ h0,
    d_wing_aspect_ratio__wing_span _ _ _ h0⟩

example : ∃ wing_area wing_glove_and_bat wing_span : ℝ,
      wing_area - wing_glove_and_bat ≠ 0 :=
  ⟨0, 1, 0, by comp_example⟩

end Verif.Comp.GeometryFlopsBasedWing.WingPrelim

