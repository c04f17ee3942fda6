import Verif.Lemmas.CompDeriv

/-! # Partial derivatives of the components of `aviary/subsystems/geometry/flops_based/prep_geom.py`

One node of a vector component is modelled over the real numbers.  Each option that selects a
branch is fixed, one namespace per choice.  `out_x` is the output `x`, `J_x__y` the entry that
`compute_partials` (or `declare_partials` with `val`) assigns, `d_x__y` the proof that the entry is
the derivative.  Inputs an output does not take as argument have no influence on it. -/

set_option linter.all false

namespace Verif.Comp.GeometryFlopsBasedPrepGeom._FuselageRatios
open Real

/-- aviary/subsystems/geometry/flops_based/prep_geom.py:218 -/
noncomputable abbrev diam_to_wing_span (wing_area wing_aspect_ratio fuselage_ref_diameter wing_glove_and_bat : ℝ) : ℝ :=
  fuselage_ref_diameter / ((wing_aspect_ratio * (wing_area - wing_glove_and_bat)) ^ ((1 / 2) :
    ℝ))

/-- aviary/subsystems/geometry/flops_based/prep_geom.py:225 -/
noncomputable abbrev length_to_diam (fuselage_ref_diameter fuselage_length : ℝ) : ℝ :=
  fuselage_length / fuselage_ref_diameter

/-- aviary/subsystems/geometry/flops_based/prep_geom.py:222 -/
noncomputable abbrev length_to_diam_2 (fuselage_ref_diameter fuselage_length : ℝ) : ℝ :=
  if 0 < fuselage_ref_diameter then (length_to_diam fuselage_ref_diameter fuselage_length) else
    100

/-- aviary/subsystems/geometry/flops_based/prep_geom.py:237 -/
noncomputable abbrev fact (wing_area wing_aspect_ratio wing_glove_and_bat : ℝ) : ℝ :=
  wing_aspect_ratio * (wing_area - wing_glove_and_bat)

/-- aviary/subsystems/geometry/flops_based/prep_geom.py:238 -/
noncomputable abbrev fact2 (wing_area wing_aspect_ratio wing_glove_and_bat : ℝ) : ℝ :=
  1 / ((fact wing_area wing_aspect_ratio wing_glove_and_bat) ^ ((3 / 2) : ℝ))

/-- Output `fuselage_diameter_to_wing_span` of `_FuselageRatios.compute`, aviary/subsystems/geometry/flops_based/prep_geom.py:220 -/
noncomputable def out_fuselage_diameter_to_wing_span (wing_area wing_aspect_ratio fuselage_ref_diameter wing_glove_and_bat : ℝ) : ℝ :=
  diam_to_wing_span wing_area wing_aspect_ratio fuselage_ref_diameter wing_glove_and_bat

/-- Output `fuselage_length_to_diameter` of `_FuselageRatios.compute`, aviary/subsystems/geometry/flops_based/prep_geom.py:229 -/
noncomputable def out_fuselage_length_to_diameter (fuselage_ref_diameter fuselage_length : ℝ) : ℝ :=
  length_to_diam_2 fuselage_ref_diameter fuselage_length

/-- Partial of `fuselage_diameter_to_wing_span` with respect to `fuselage_ref_diameter` as set by `_FuselageRatios`, aviary/subsystems/geometry/flops_based/prep_geom.py:240 -/
noncomputable def J_fuselage_diameter_to_wing_span__fuselage_ref_diameter (wing_area wing_aspect_ratio wing_glove_and_bat : ℝ) : ℝ :=
  1 / ((fact wing_area wing_aspect_ratio wing_glove_and_bat) ^ ((1 / 2) : ℝ))

/-- Partial of `fuselage_diameter_to_wing_span` with respect to `wing_aspect_ratio` as set by `_FuselageRatios`, aviary/subsystems/geometry/flops_based/prep_geom.py:242 -/
noncomputable def J_fuselage_diameter_to_wing_span__wing_aspect_ratio (wing_area wing_aspect_ratio fuselage_ref_diameter wing_glove_and_bat : ℝ) : ℝ :=
  (((-(1 / 2)) * fuselage_ref_diameter) * (wing_area - wing_glove_and_bat)) * (fact2 wing_area
    wing_aspect_ratio wing_glove_and_bat)

/-- Partial of `fuselage_diameter_to_wing_span` with respect to `wing_area` as set by `_FuselageRatios`, aviary/subsystems/geometry/flops_based/prep_geom.py:246 -/
noncomputable def J_fuselage_diameter_to_wing_span__wing_area (wing_area wing_aspect_ratio fuselage_ref_diameter wing_glove_and_bat : ℝ) : ℝ :=
  (((-(1 / 2)) * fuselage_ref_diameter) * wing_aspect_ratio) * (fact2 wing_area
    wing_aspect_ratio wing_glove_and_bat)

/-- Partial of `fuselage_diameter_to_wing_span` with respect to `wing_glove_and_bat` as set by `_FuselageRatios`, aviary/subsystems/geometry/flops_based/prep_geom.py:250 -/
noncomputable def J_fuselage_diameter_to_wing_span__wing_glove_and_bat (wing_area wing_aspect_ratio fuselage_ref_diameter wing_glove_and_bat : ℝ) : ℝ :=
  (((1 / 2) * fuselage_ref_diameter) * wing_aspect_ratio) * (fact2 wing_area wing_aspect_ratio
    wing_glove_and_bat)

/-- Partial of `fuselage_length_to_diameter` with respect to `fuselage_ref_diameter` as set by `_FuselageRatios`, aviary/subsystems/geometry/flops_based/prep_geom.py:264 -/
noncomputable def J_fuselage_length_to_diameter__fuselage_ref_diameter (fuselage_ref_diameter fuselage_length : ℝ) : ℝ :=
  if 0 < fuselage_ref_diameter then ((-fuselage_length) / (fuselage_ref_diameter ^ 2)) else 0

/-- Partial of `fuselage_length_to_diameter` with respect to `fuselage_length` as set by `_FuselageRatios`, aviary/subsystems/geometry/flops_based/prep_geom.py:264 -/
noncomputable def J_fuselage_length_to_diameter__fuselage_length (fuselage_ref_diameter : ℝ) : ℝ :=
  if 0 < fuselage_ref_diameter then (1 / fuselage_ref_diameter) else 0

theorem d_fuselage_diameter_to_wing_span__wing_area (wing_area wing_aspect_ratio
    fuselage_ref_diameter wing_glove_and_bat : ℝ) (h0 : 0 < wing_aspect_ratio) (h1 : 0 < wing_area
    - wing_glove_and_bat) :
    HasDerivAt (fun t => out_fuselage_diameter_to_wing_span t wing_aspect_ratio fuselage_ref_diameter wing_glove_and_bat) (J_fuselage_diameter_to_wing_span__wing_area wing_area wing_aspect_ratio fuselage_ref_diameter wing_glove_and_bat) wing_area := by
  have e0 : ∀ x : ℝ, 0 < x → x ^ ((3 / 2) : ℝ) = x ^ ((1 / 2) : ℝ) * x ^ 1 := fun x hx => rpow_up hx 1 (by norm_num)
  simp only [out_fuselage_diameter_to_wing_span, J_fuselage_diameter_to_wing_span__wing_area, fact2, fact, diam_to_wing_span]
  (apply hasDerivAt_of_eq; on_goal 1 => (repeat' comp_step))
  all_goals try comp_side
  all_goals try simp (disch := first | assumption | positivity) only [e0, div_mul_eq_div_div, div_half, inv_half]
  all_goals try simp only [mul_zero, zero_mul, add_zero, zero_add, sub_zero, zero_sub, mul_one, one_mul]
  all_goals try push_cast
  all_goals comp_eq

theorem d_fuselage_diameter_to_wing_span__wing_aspect_ratio (wing_area wing_aspect_ratio
    fuselage_ref_diameter wing_glove_and_bat : ℝ) (h0 : 0 < wing_aspect_ratio) (h1 : 0 < wing_area
    - wing_glove_and_bat) :
    HasDerivAt (fun t => out_fuselage_diameter_to_wing_span wing_area t fuselage_ref_diameter wing_glove_and_bat) (J_fuselage_diameter_to_wing_span__wing_aspect_ratio wing_area wing_aspect_ratio fuselage_ref_diameter wing_glove_and_bat) wing_aspect_ratio := by
  have e0 : ∀ x : ℝ, 0 < x → x ^ ((3 / 2) : ℝ) = x ^ ((1 / 2) : ℝ) * x ^ 1 := fun x hx => rpow_up hx 1 (by norm_num)
  simp only [out_fuselage_diameter_to_wing_span, J_fuselage_diameter_to_wing_span__wing_aspect_ratio, fact2, fact, diam_to_wing_span]
  (apply hasDerivAt_of_eq; on_goal 1 => (repeat' comp_step))
  all_goals try comp_side
  all_goals try simp (disch := first | assumption | positivity) only [e0, div_mul_eq_div_div, div_half, inv_half]
  all_goals try simp only [mul_zero, zero_mul, add_zero, zero_add, sub_zero, zero_sub, mul_one, one_mul]
  all_goals try push_cast
  all_goals comp_eq

theorem d_fuselage_diameter_to_wing_span__fuselage_ref_diameter (wing_area wing_aspect_ratio
    fuselage_ref_diameter wing_glove_and_bat : ℝ) (h0 : 0 < wing_aspect_ratio) (h1 : 0 < wing_area
    - wing_glove_and_bat) :
    HasDerivAt (fun t => out_fuselage_diameter_to_wing_span wing_area wing_aspect_ratio t wing_glove_and_bat) (J_fuselage_diameter_to_wing_span__fuselage_ref_diameter wing_area wing_aspect_ratio wing_glove_and_bat) fuselage_ref_diameter := by
  simp only [out_fuselage_diameter_to_wing_span, J_fuselage_diameter_to_wing_span__fuselage_ref_diameter, fact, diam_to_wing_span]
  (apply hasDerivAt_of_eq; on_goal 1 => (repeat' comp_step))
  all_goals try comp_side
  all_goals try simp (disch := first | assumption | positivity) only [div_mul_eq_div_div, div_half, inv_half]
  all_goals try simp only [mul_zero, zero_mul, add_zero, zero_add, sub_zero, zero_sub, mul_one, one_mul]
  all_goals try push_cast
  all_goals comp_eq

theorem d_fuselage_diameter_to_wing_span__wing_glove_and_bat (wing_area wing_aspect_ratio
    fuselage_ref_diameter wing_glove_and_bat : ℝ) (h0 : 0 < wing_aspect_ratio) (h1 : 0 < wing_area
    - wing_glove_and_bat) :
    HasDerivAt (fun t => out_fuselage_diameter_to_wing_span wing_area wing_aspect_ratio fuselage_ref_diameter t) (J_fuselage_diameter_to_wing_span__wing_glove_and_bat wing_area wing_aspect_ratio fuselage_ref_diameter wing_glove_and_bat) wing_glove_and_bat := by
  have e0 : ∀ x : ℝ, 0 < x → x ^ ((3 / 2) : ℝ) = x ^ ((1 / 2) : ℝ) * x ^ 1 := fun x hx => rpow_up hx 1 (by norm_num)
  simp only [out_fuselage_diameter_to_wing_span, J_fuselage_diameter_to_wing_span__wing_glove_and_bat, fact2, fact, diam_to_wing_span]
  (apply hasDerivAt_of_eq; on_goal 1 => (repeat' comp_step))
  all_goals try comp_side
  all_goals try simp (disch := first | assumption | positivity) only [e0, div_mul_eq_div_div, div_half, inv_half]
  all_goals try simp only [mul_zero, zero_mul, add_zero, zero_add, sub_zero, zero_sub, mul_one, one_mul]
  all_goals try push_cast
  all_goals comp_eq

theorem d_fuselage_length_to_diameter__fuselage_ref_diameter (fuselage_ref_diameter
    fuselage_length : ℝ) (h0 : 0 ≠ fuselage_ref_diameter) (h1 : 0 < fuselage_ref_diameter) :
    HasDerivAt (fun t => out_fuselage_length_to_diameter t fuselage_length) (J_fuselage_length_to_diameter__fuselage_ref_diameter fuselage_ref_diameter fuselage_length) fuselage_ref_diameter := by
  simp only [out_fuselage_length_to_diameter, J_fuselage_length_to_diameter__fuselage_ref_diameter, length_to_diam_2, length_to_diam]
  try split_ifs
  all_goals (apply hasDerivAt_of_eq; on_goal 1 => (repeat' comp_step))
  all_goals try comp_side
  all_goals try split_ifs
  all_goals try (exfalso; linarith)
  all_goals try simp only [mul_zero, zero_mul, add_zero, zero_add, sub_zero, zero_sub, mul_one, one_mul]
  all_goals try push_cast
  all_goals comp_eq

theorem d_fuselage_length_to_diameter__fuselage_length (fuselage_ref_diameter fuselage_length : ℝ)
    (h0 : 0 < fuselage_ref_diameter) :
    HasDerivAt (fun t => out_fuselage_length_to_diameter fuselage_ref_diameter t) (J_fuselage_length_to_diameter__fuselage_length fuselage_ref_diameter) fuselage_length := by
  simp only [out_fuselage_length_to_diameter, J_fuselage_length_to_diameter__fuselage_length, length_to_diam_2, length_to_diam]
  try split_ifs
  all_goals (apply hasDerivAt_of_eq; on_goal 1 => (repeat' comp_step))
  all_goals try comp_side
  all_goals try split_ifs
  all_goals try (exfalso; linarith)
  all_goals try simp only [mul_zero, zero_mul, add_zero, zero_add, sub_zero, zero_sub, mul_one, one_mul]
  all_goals try push_cast
  all_goals comp_eq

/-- Every partial derivative set by `_FuselageRatios` is the derivative of its output. -/
theorem partials (wing_area wing_aspect_ratio fuselage_ref_diameter wing_glove_and_bat
    fuselage_length : ℝ) (h0 : 0 < wing_aspect_ratio) (h1 : 0 < wing_area - wing_glove_and_bat)
    (h2 : 0 ≠ fuselage_ref_diameter) (h3 : 0 < fuselage_ref_diameter) :
    HasDerivAt (fun t => out_fuselage_diameter_to_wing_span t wing_aspect_ratio fuselage_ref_diameter
      wing_glove_and_bat) (J_fuselage_diameter_to_wing_span__wing_area wing_area wing_aspect_ratio
      fuselage_ref_diameter wing_glove_and_bat) wing_area ∧
    HasDerivAt (fun t => out_fuselage_diameter_to_wing_span wing_area t fuselage_ref_diameter
      wing_glove_and_bat) (J_fuselage_diameter_to_wing_span__wing_aspect_ratio wing_area
      wing_aspect_ratio fuselage_ref_diameter wing_glove_and_bat) wing_aspect_ratio ∧
    HasDerivAt (fun t => out_fuselage_diameter_to_wing_span wing_area wing_aspect_ratio t
      wing_glove_and_bat) (J_fuselage_diameter_to_wing_span__fuselage_ref_diameter wing_area
      wing_aspect_ratio wing_glove_and_bat) fuselage_ref_diameter ∧
    HasDerivAt (fun t => out_fuselage_diameter_to_wing_span wing_area wing_aspect_ratio
      fuselage_ref_diameter t) (J_fuselage_diameter_to_wing_span__wing_glove_and_bat wing_area
      wing_aspect_ratio fuselage_ref_diameter wing_glove_and_bat) wing_glove_and_bat ∧
    HasDerivAt (fun t => out_fuselage_length_to_diameter t fuselage_length)
      (J_fuselage_length_to_diameter__fuselage_ref_diameter fuselage_ref_diameter fuselage_length)
      fuselage_ref_diameter ∧
    HasDerivAt (fun t => out_fuselage_length_to_diameter fuselage_ref_diameter t)
      (J_fuselage_length_to_diameter__fuselage_length fuselage_ref_diameter) fuselage_length :=
  ⟨d_fuselage_diameter_to_wing_span__wing_area _ _ _ _ h0 h1,
    d_fuselage_diameter_to_wing_span__wing_aspect_ratio _ _ _ _ h0 h1,
    d_fuselage_diameter_to_wing_span__fuselage_ref_diameter _ _ _ _ h0 h1,
    d_fuselage_diameter_to_wing_span__wing_glove_and_bat _ _ _ _ h0 h1,
    d_fuselage_length_to_diameter__fuselage_ref_diameter _ _ h2 h3,
    d_fuselage_length_to_diameter__fuselage_length _ _ h3⟩

example : ∃ wing_area wing_aspect_ratio fuselage_ref_diameter wing_glove_and_bat fuselage_length :
      ℝ,
      0 < wing_aspect_ratio ∧
      0 < wing_area - wing_glove_and_bat ∧
      0 ≠ fuselage_ref_diameter ∧
      0 < fuselage_ref_diameter :=
  ⟨1, 1, 1, 0, 0, by comp_example, by comp_example, by comp_example, by comp_example⟩

end Verif.Comp.GeometryFlopsBasedPrepGeom._FuselageRatios

