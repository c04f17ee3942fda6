import Verif.Lemmas.CompDeriv

/-! # Partial derivatives of the components of `aviary/subsystems/geometry/gasp_based/empennage.py`

One node of a vector component is modelled over the real numbers.  Each option that selects a
branch is fixed, one namespace per choice.  `out_x` is the output `x`, `J_x__y` the entry that
`compute_partials` (or `declare_partials` with `val`) assigns, `d_x__y` the proof that the entry is
the derivative.  Inputs an output does not take as argument have no influence on it. -/

set_option linter.all false

namespace Verif.Comp.GeometryGaspBasedEmpennage.TailSize_horizontal
open Real

/-- aviary/subsystems/geometry/gasp_based/empennage.py:181 -/
noncomputable def area (horizontaltail_volume_coefficient wing_area horizontaltail_moment_ratio : ℝ) : ℝ :=
  (horizontaltail_volume_coefficient * wing_area) * horizontaltail_moment_ratio

/-- aviary/subsystems/geometry/gasp_based/empennage.py:182 -/
noncomputable def span (horizontaltail_volume_coefficient wing_area horizontaltail_moment_ratio horizontaltail_aspect_ratio : ℝ) : ℝ :=
  sqrt ((area horizontaltail_volume_coefficient wing_area horizontaltail_moment_ratio) *
    horizontaltail_aspect_ratio)

/-- aviary/subsystems/geometry/gasp_based/empennage.py:183 -/
noncomputable def rchord (horizontaltail_volume_coefficient wing_area horizontaltail_moment_ratio horizontaltail_aspect_ratio horizontaltail_taper_ratio : ℝ) : ℝ :=
  ((2 * (area horizontaltail_volume_coefficient wing_area horizontaltail_moment_ratio)) / (span
    horizontaltail_volume_coefficient wing_area horizontaltail_moment_ratio
    horizontaltail_aspect_ratio)) / (1 + horizontaltail_taper_ratio)

/-- aviary/subsystems/geometry/gasp_based/empennage.py:184 -/
noncomputable def chord (horizontaltail_volume_coefficient wing_area horizontaltail_moment_ratio horizontaltail_aspect_ratio horizontaltail_taper_ratio : ℝ) : ℝ :=
  ((2 / 3) * (rchord horizontaltail_volume_coefficient wing_area horizontaltail_moment_ratio
    horizontaltail_aspect_ratio horizontaltail_taper_ratio)) * ((1 + horizontaltail_taper_ratio)
    - (horizontaltail_taper_ratio / (1 + horizontaltail_taper_ratio)))

/-- aviary/subsystems/geometry/gasp_based/empennage.py:185 -/
noncomputable def arm (horizontaltail_moment_ratio wing_average_chord : ℝ) : ℝ :=
  wing_average_chord / horizontaltail_moment_ratio

/-- aviary/subsystems/geometry/gasp_based/empennage.py:211 -/
noncomputable def cse1 (horizontaltail_volume_coefficient wing_area horizontaltail_moment_ratio horizontaltail_aspect_ratio : ℝ) : ℝ :=
  sqrt (((horizontaltail_volume_coefficient * wing_area) * horizontaltail_moment_ratio) *
    horizontaltail_aspect_ratio)

/-- aviary/subsystems/geometry/gasp_based/empennage.py:217 -/
noncomputable def cse2 (horizontaltail_volume_coefficient wing_area horizontaltail_moment_ratio horizontaltail_aspect_ratio horizontaltail_taper_ratio : ℝ) : ℝ :=
  (cse1 horizontaltail_volume_coefficient wing_area horizontaltail_moment_ratio
    horizontaltail_aspect_ratio) * (horizontaltail_taper_ratio + 1)

/-- aviary/subsystems/geometry/gasp_based/empennage.py:224 -/
noncomputable def cse3 (horizontaltail_taper_ratio : ℝ) : ℝ :=
  (horizontaltail_taper_ratio - (horizontaltail_taper_ratio / (horizontaltail_taper_ratio + 1)))
    + 1

/-- Output `horizontaltail_area` of `TailSize.compute`, aviary/subsystems/geometry/gasp_based/empennage.py:187 -/
noncomputable def out_horizontaltail_area (horizontaltail_volume_coefficient wing_area horizontaltail_moment_ratio : ℝ) : ℝ :=
  area horizontaltail_volume_coefficient wing_area horizontaltail_moment_ratio

/-- Output `horizontaltail_span` of `TailSize.compute`, aviary/subsystems/geometry/gasp_based/empennage.py:188 -/
noncomputable def out_horizontaltail_span (horizontaltail_volume_coefficient wing_area horizontaltail_moment_ratio horizontaltail_aspect_ratio : ℝ) : ℝ :=
  span horizontaltail_volume_coefficient wing_area horizontaltail_moment_ratio
    horizontaltail_aspect_ratio

/-- Output `horizontaltail_root_chord` of `TailSize.compute`, aviary/subsystems/geometry/gasp_based/empennage.py:189 -/
noncomputable def out_horizontaltail_root_chord (horizontaltail_volume_coefficient wing_area horizontaltail_moment_ratio horizontaltail_aspect_ratio horizontaltail_taper_ratio : ℝ) : ℝ :=
  rchord horizontaltail_volume_coefficient wing_area horizontaltail_moment_ratio
    horizontaltail_aspect_ratio horizontaltail_taper_ratio

/-- Output `horizontaltail_average_chord` of `TailSize.compute`, aviary/subsystems/geometry/gasp_based/empennage.py:190 -/
noncomputable def out_horizontaltail_average_chord (horizontaltail_volume_coefficient wing_area horizontaltail_moment_ratio horizontaltail_aspect_ratio horizontaltail_taper_ratio : ℝ) : ℝ :=
  chord horizontaltail_volume_coefficient wing_area horizontaltail_moment_ratio
    horizontaltail_aspect_ratio horizontaltail_taper_ratio

/-- Output `horizontaltail_moment_arm` of `TailSize.compute`, aviary/subsystems/geometry/gasp_based/empennage.py:191 -/
noncomputable def out_horizontaltail_moment_arm (horizontaltail_moment_ratio wing_average_chord : ℝ) : ℝ :=
  arm horizontaltail_moment_ratio wing_average_chord

/-- Partial of `horizontaltail_area` with respect to `horizontaltail_volume_coefficient` as set by `TailSize`, aviary/subsystems/geometry/gasp_based/empennage.py:207 -/
noncomputable def J_horizontaltail_area__horizontaltail_volume_coefficient (wing_area horizontaltail_moment_ratio : ℝ) : ℝ :=
  wing_area * horizontaltail_moment_ratio

/-- Partial of `horizontaltail_area` with respect to `wing_area` as set by `TailSize`, aviary/subsystems/geometry/gasp_based/empennage.py:208 -/
noncomputable def J_horizontaltail_area__wing_area (horizontaltail_volume_coefficient horizontaltail_moment_ratio : ℝ) : ℝ :=
  horizontaltail_volume_coefficient * horizontaltail_moment_ratio

/-- Partial of `horizontaltail_area` with respect to `horizontaltail_moment_ratio` as set by `TailSize`, aviary/subsystems/geometry/gasp_based/empennage.py:209 -/
noncomputable def J_horizontaltail_area__horizontaltail_moment_ratio (horizontaltail_volume_coefficient wing_area : ℝ) : ℝ :=
  horizontaltail_volume_coefficient * wing_area

/-- Partial of `horizontaltail_span` with respect to `horizontaltail_volume_coefficient` as set by `TailSize`, aviary/subsystems/geometry/gasp_based/empennage.py:212 -/
noncomputable def J_horizontaltail_span__horizontaltail_volume_coefficient (horizontaltail_volume_coefficient wing_area horizontaltail_moment_ratio horizontaltail_aspect_ratio : ℝ) : ℝ :=
  (cse1 horizontaltail_volume_coefficient wing_area horizontaltail_moment_ratio
    horizontaltail_aspect_ratio) / (2 * horizontaltail_volume_coefficient)

/-- Partial of `horizontaltail_span` with respect to `wing_area` as set by `TailSize`, aviary/subsystems/geometry/gasp_based/empennage.py:213 -/
noncomputable def J_horizontaltail_span__wing_area (horizontaltail_volume_coefficient wing_area horizontaltail_moment_ratio horizontaltail_aspect_ratio : ℝ) : ℝ :=
  (cse1 horizontaltail_volume_coefficient wing_area horizontaltail_moment_ratio
    horizontaltail_aspect_ratio) / (2 * wing_area)

/-- Partial of `horizontaltail_span` with respect to `horizontaltail_moment_ratio` as set by `TailSize`, aviary/subsystems/geometry/gasp_based/empennage.py:214 -/
noncomputable def J_horizontaltail_span__horizontaltail_moment_ratio (horizontaltail_volume_coefficient wing_area horizontaltail_moment_ratio horizontaltail_aspect_ratio : ℝ) : ℝ :=
  (cse1 horizontaltail_volume_coefficient wing_area horizontaltail_moment_ratio
    horizontaltail_aspect_ratio) / (2 * horizontaltail_moment_ratio)

/-- Partial of `horizontaltail_span` with respect to `horizontaltail_aspect_ratio` as set by `TailSize`, aviary/subsystems/geometry/gasp_based/empennage.py:215 -/
noncomputable def J_horizontaltail_span__horizontaltail_aspect_ratio (horizontaltail_volume_coefficient wing_area horizontaltail_moment_ratio horizontaltail_aspect_ratio : ℝ) : ℝ :=
  (cse1 horizontaltail_volume_coefficient wing_area horizontaltail_moment_ratio
    horizontaltail_aspect_ratio) / (2 * horizontaltail_aspect_ratio)

/-- Partial of `horizontaltail_root_chord` with respect to `horizontaltail_volume_coefficient` as set by `TailSize`, aviary/subsystems/geometry/gasp_based/empennage.py:218 -/
noncomputable def J_horizontaltail_root_chord__horizontaltail_volume_coefficient (horizontaltail_volume_coefficient wing_area horizontaltail_moment_ratio horizontaltail_aspect_ratio horizontaltail_taper_ratio : ℝ) : ℝ :=
  (wing_area * horizontaltail_moment_ratio) / (cse2 horizontaltail_volume_coefficient wing_area
    horizontaltail_moment_ratio horizontaltail_aspect_ratio horizontaltail_taper_ratio)

/-- Partial of `horizontaltail_root_chord` with respect to `wing_area` as set by `TailSize`, aviary/subsystems/geometry/gasp_based/empennage.py:219 -/
noncomputable def J_horizontaltail_root_chord__wing_area (horizontaltail_volume_coefficient wing_area horizontaltail_moment_ratio horizontaltail_aspect_ratio horizontaltail_taper_ratio : ℝ) : ℝ :=
  (horizontaltail_volume_coefficient * horizontaltail_moment_ratio) / (cse2
    horizontaltail_volume_coefficient wing_area horizontaltail_moment_ratio
    horizontaltail_aspect_ratio horizontaltail_taper_ratio)

/-- Partial of `horizontaltail_root_chord` with respect to `horizontaltail_moment_ratio` as set by `TailSize`, aviary/subsystems/geometry/gasp_based/empennage.py:220 -/
noncomputable def J_horizontaltail_root_chord__horizontaltail_moment_ratio (horizontaltail_volume_coefficient wing_area horizontaltail_moment_ratio horizontaltail_aspect_ratio horizontaltail_taper_ratio : ℝ) : ℝ :=
  (wing_area * horizontaltail_volume_coefficient) / (cse2 horizontaltail_volume_coefficient
    wing_area horizontaltail_moment_ratio horizontaltail_aspect_ratio
    horizontaltail_taper_ratio)

/-- Partial of `horizontaltail_root_chord` with respect to `horizontaltail_aspect_ratio` as set by `TailSize`, aviary/subsystems/geometry/gasp_based/empennage.py:221 -/
noncomputable def J_horizontaltail_root_chord__horizontaltail_aspect_ratio (horizontaltail_volume_coefficient wing_area horizontaltail_moment_ratio horizontaltail_aspect_ratio horizontaltail_taper_ratio : ℝ) : ℝ :=
  (((-horizontaltail_volume_coefficient) * wing_area) * horizontaltail_moment_ratio) /
    (horizontaltail_aspect_ratio * (cse2 horizontaltail_volume_coefficient wing_area
    horizontaltail_moment_ratio horizontaltail_aspect_ratio horizontaltail_taper_ratio))

/-- Partial of `horizontaltail_root_chord` with respect to `horizontaltail_taper_ratio` as set by `TailSize`, aviary/subsystems/geometry/gasp_based/empennage.py:222 -/
noncomputable def J_horizontaltail_root_chord__horizontaltail_taper_ratio (horizontaltail_volume_coefficient wing_area horizontaltail_moment_ratio horizontaltail_aspect_ratio horizontaltail_taper_ratio : ℝ) : ℝ :=
  ((((-2) * horizontaltail_volume_coefficient) * wing_area) * horizontaltail_moment_ratio) /
    ((cse2 horizontaltail_volume_coefficient wing_area horizontaltail_moment_ratio
    horizontaltail_aspect_ratio horizontaltail_taper_ratio) * (horizontaltail_taper_ratio + 1))

/-- Partial of `horizontaltail_average_chord` with respect to `horizontaltail_volume_coefficient` as set by `TailSize`, aviary/subsystems/geometry/gasp_based/empennage.py:225 -/
noncomputable def J_horizontaltail_average_chord__horizontaltail_volume_coefficient (horizontaltail_volume_coefficient wing_area horizontaltail_moment_ratio horizontaltail_aspect_ratio horizontaltail_taper_ratio : ℝ) : ℝ :=
  ((((2 / 3) * wing_area) * horizontaltail_moment_ratio) * (cse3 horizontaltail_taper_ratio)) /
    (cse2 horizontaltail_volume_coefficient wing_area horizontaltail_moment_ratio
    horizontaltail_aspect_ratio horizontaltail_taper_ratio)

/-- Partial of `horizontaltail_average_chord` with respect to `wing_area` as set by `TailSize`, aviary/subsystems/geometry/gasp_based/empennage.py:226 -/
noncomputable def J_horizontaltail_average_chord__wing_area (horizontaltail_volume_coefficient wing_area horizontaltail_moment_ratio horizontaltail_aspect_ratio horizontaltail_taper_ratio : ℝ) : ℝ :=
  ((((2 / 3) * horizontaltail_volume_coefficient) * horizontaltail_moment_ratio) * (cse3
    horizontaltail_taper_ratio)) / (cse2 horizontaltail_volume_coefficient wing_area
    horizontaltail_moment_ratio horizontaltail_aspect_ratio horizontaltail_taper_ratio)

/-- Partial of `horizontaltail_average_chord` with respect to `horizontaltail_moment_ratio` as set by `TailSize`, aviary/subsystems/geometry/gasp_based/empennage.py:227 -/
noncomputable def J_horizontaltail_average_chord__horizontaltail_moment_ratio (horizontaltail_volume_coefficient wing_area horizontaltail_moment_ratio horizontaltail_aspect_ratio horizontaltail_taper_ratio : ℝ) : ℝ :=
  ((((2 / 3) * horizontaltail_volume_coefficient) * wing_area) * (cse3
    horizontaltail_taper_ratio)) / (cse2 horizontaltail_volume_coefficient wing_area
    horizontaltail_moment_ratio horizontaltail_aspect_ratio horizontaltail_taper_ratio)

/-- Partial of `horizontaltail_average_chord` with respect to `horizontaltail_aspect_ratio` as set by `TailSize`, aviary/subsystems/geometry/gasp_based/empennage.py:228 -/
noncomputable def J_horizontaltail_average_chord__horizontaltail_aspect_ratio (horizontaltail_volume_coefficient wing_area horizontaltail_moment_ratio horizontaltail_aspect_ratio horizontaltail_taper_ratio : ℝ) : ℝ :=
  (((((-(2 / 3)) * horizontaltail_volume_coefficient) * wing_area) *
    horizontaltail_moment_ratio) * (cse3 horizontaltail_taper_ratio)) /
    (horizontaltail_aspect_ratio * (cse2 horizontaltail_volume_coefficient wing_area
    horizontaltail_moment_ratio horizontaltail_aspect_ratio horizontaltail_taper_ratio))

/-- Partial of `horizontaltail_average_chord` with respect to `horizontaltail_taper_ratio` as set by `TailSize`, aviary/subsystems/geometry/gasp_based/empennage.py:229 -/
noncomputable def J_horizontaltail_average_chord__horizontaltail_taper_ratio (horizontaltail_volume_coefficient wing_area horizontaltail_moment_ratio horizontaltail_aspect_ratio horizontaltail_taper_ratio : ℝ) : ℝ :=
  (((4 / 3) * (cse1 horizontaltail_volume_coefficient wing_area horizontaltail_moment_ratio
    horizontaltail_aspect_ratio)) * (horizontaltail_taper_ratio - 1)) /
    (horizontaltail_aspect_ratio * ((horizontaltail_taper_ratio + 1) ^ 3))

/-- Partial of `horizontaltail_moment_arm` with respect to `horizontaltail_moment_ratio` as set by `TailSize`, aviary/subsystems/geometry/gasp_based/empennage.py:231 -/
noncomputable def J_horizontaltail_moment_arm__horizontaltail_moment_ratio (horizontaltail_moment_ratio wing_average_chord : ℝ) : ℝ :=
  (-wing_average_chord) / (horizontaltail_moment_ratio ^ 2)

/-- Partial of `horizontaltail_moment_arm` with respect to `wing_average_chord` as set by `TailSize`, aviary/subsystems/geometry/gasp_based/empennage.py:232 -/
noncomputable def J_horizontaltail_moment_arm__wing_average_chord (horizontaltail_moment_ratio : ℝ) : ℝ :=
  1 / horizontaltail_moment_ratio

theorem d_horizontaltail_area__horizontaltail_volume_coefficient
    (horizontaltail_volume_coefficient wing_area horizontaltail_moment_ratio : ℝ)  :
    HasDerivAt (fun t => out_horizontaltail_area t wing_area horizontaltail_moment_ratio) (J_horizontaltail_area__horizontaltail_volume_coefficient wing_area horizontaltail_moment_ratio) horizontaltail_volume_coefficient := by
  simp only [out_horizontaltail_area, J_horizontaltail_area__horizontaltail_volume_coefficient, area]
  (apply hasDerivAt_of_eq; on_goal 1 => (repeat' comp_step))
  all_goals try comp_side
  all_goals try simp only [mul_zero, zero_mul, add_zero, zero_add, sub_zero, zero_sub, mul_one, one_mul]
  all_goals try push_cast
  all_goals comp_eq

theorem d_horizontaltail_area__wing_area (horizontaltail_volume_coefficient wing_area
    horizontaltail_moment_ratio : ℝ)  :
    HasDerivAt (fun t => out_horizontaltail_area horizontaltail_volume_coefficient t horizontaltail_moment_ratio) (J_horizontaltail_area__wing_area horizontaltail_volume_coefficient horizontaltail_moment_ratio) wing_area := by
  simp only [out_horizontaltail_area, J_horizontaltail_area__wing_area, area]
  (apply hasDerivAt_of_eq; on_goal 1 => (repeat' comp_step))
  all_goals try comp_side
  all_goals try simp only [mul_zero, zero_mul, add_zero, zero_add, sub_zero, zero_sub, mul_one, one_mul]
  all_goals try push_cast
  all_goals comp_eq

theorem d_horizontaltail_area__horizontaltail_moment_ratio (horizontaltail_volume_coefficient
    wing_area horizontaltail_moment_ratio : ℝ)  :
    HasDerivAt (fun t => out_horizontaltail_area horizontaltail_volume_coefficient wing_area t) (J_horizontaltail_area__horizontaltail_moment_ratio horizontaltail_volume_coefficient wing_area) horizontaltail_moment_ratio := by
  simp only [out_horizontaltail_area, J_horizontaltail_area__horizontaltail_moment_ratio, area]
  (apply hasDerivAt_of_eq; on_goal 1 => (repeat' comp_step))
  all_goals try comp_side
  all_goals try simp only [mul_zero, zero_mul, add_zero, zero_add, sub_zero, zero_sub, mul_one, one_mul]
  all_goals try push_cast
  all_goals comp_eq

theorem d_horizontaltail_span__horizontaltail_volume_coefficient
    (horizontaltail_volume_coefficient wing_area horizontaltail_moment_ratio
    horizontaltail_aspect_ratio : ℝ) (h0 : 0 < horizontaltail_volume_coefficient) (h1 : 0 <
    wing_area) (h2 : 0 < horizontaltail_moment_ratio) (h3 : 0 < horizontaltail_aspect_ratio) :
    HasDerivAt (fun t => out_horizontaltail_span t wing_area horizontaltail_moment_ratio horizontaltail_aspect_ratio) (J_horizontaltail_span__horizontaltail_volume_coefficient horizontaltail_volume_coefficient wing_area horizontaltail_moment_ratio horizontaltail_aspect_ratio) horizontaltail_volume_coefficient := by
  simp only [out_horizontaltail_span, J_horizontaltail_span__horizontaltail_volume_coefficient, cse1, span, area, sqrt_eq_rpow]
  (apply hasDerivAt_of_eq; on_goal 1 => (repeat' comp_step))
  all_goals try comp_side
  all_goals try simp (disch := first | assumption | positivity) only [div_mul_eq_div_div, div_half, inv_half]
  all_goals try simp only [mul_zero, zero_mul, add_zero, zero_add, sub_zero, zero_sub, mul_one, one_mul]
  all_goals try push_cast
  all_goals comp_eq

theorem d_horizontaltail_span__wing_area (horizontaltail_volume_coefficient wing_area
    horizontaltail_moment_ratio horizontaltail_aspect_ratio : ℝ) (h0 : 0 <
    horizontaltail_volume_coefficient) (h1 : 0 < wing_area) (h2 : 0 < horizontaltail_moment_ratio)
    (h3 : 0 < horizontaltail_aspect_ratio) :
    HasDerivAt (fun t => out_horizontaltail_span horizontaltail_volume_coefficient t horizontaltail_moment_ratio horizontaltail_aspect_ratio) (J_horizontaltail_span__wing_area horizontaltail_volume_coefficient wing_area horizontaltail_moment_ratio horizontaltail_aspect_ratio) wing_area := by
  simp only [out_horizontaltail_span, J_horizontaltail_span__wing_area, cse1, span, area, sqrt_eq_rpow]
  (apply hasDerivAt_of_eq; on_goal 1 => (repeat' comp_step))
  all_goals try comp_side
  all_goals try simp (disch := first | assumption | positivity) only [div_mul_eq_div_div, div_half, inv_half]
  all_goals try simp only [mul_zero, zero_mul, add_zero, zero_add, sub_zero, zero_sub, mul_one, one_mul]
  all_goals try push_cast
  all_goals comp_eq

theorem d_horizontaltail_span__horizontaltail_moment_ratio (horizontaltail_volume_coefficient
    wing_area horizontaltail_moment_ratio horizontaltail_aspect_ratio : ℝ) (h0 : 0 <
    horizontaltail_volume_coefficient) (h1 : 0 < wing_area) (h2 : 0 < horizontaltail_moment_ratio)
    (h3 : 0 < horizontaltail_aspect_ratio) :
    HasDerivAt (fun t => out_horizontaltail_span horizontaltail_volume_coefficient wing_area t horizontaltail_aspect_ratio) (J_horizontaltail_span__horizontaltail_moment_ratio horizontaltail_volume_coefficient wing_area horizontaltail_moment_ratio horizontaltail_aspect_ratio) horizontaltail_moment_ratio := by
  simp only [out_horizontaltail_span, J_horizontaltail_span__horizontaltail_moment_ratio, cse1, span, area, sqrt_eq_rpow]
  (apply hasDerivAt_of_eq; on_goal 1 => (repeat' comp_step))
  all_goals try comp_side
  all_goals try simp (disch := first | assumption | positivity) only [div_mul_eq_div_div, div_half, inv_half]
  all_goals try simp only [mul_zero, zero_mul, add_zero, zero_add, sub_zero, zero_sub, mul_one, one_mul]
  all_goals try push_cast
  all_goals comp_eq

theorem d_horizontaltail_span__horizontaltail_aspect_ratio (horizontaltail_volume_coefficient
    wing_area horizontaltail_moment_ratio horizontaltail_aspect_ratio : ℝ) (h0 : 0 <
    horizontaltail_volume_coefficient) (h1 : 0 < wing_area) (h2 : 0 < horizontaltail_moment_ratio)
    (h3 : 0 < horizontaltail_aspect_ratio) :
    HasDerivAt (fun t => out_horizontaltail_span horizontaltail_volume_coefficient wing_area horizontaltail_moment_ratio t) (J_horizontaltail_span__horizontaltail_aspect_ratio horizontaltail_volume_coefficient wing_area horizontaltail_moment_ratio horizontaltail_aspect_ratio) horizontaltail_aspect_ratio := by
  simp only [out_horizontaltail_span, J_horizontaltail_span__horizontaltail_aspect_ratio, cse1, span, area, sqrt_eq_rpow]
  (apply hasDerivAt_of_eq; on_goal 1 => (repeat' comp_step))
  all_goals try comp_side
  all_goals try simp (disch := first | assumption | positivity) only [div_mul_eq_div_div, div_half, inv_half]
  all_goals try simp only [mul_zero, zero_mul, add_zero, zero_add, sub_zero, zero_sub, mul_one, one_mul]
  all_goals try push_cast
  all_goals comp_eq

theorem d_horizontaltail_root_chord__horizontaltail_volume_coefficient
    (horizontaltail_volume_coefficient wing_area horizontaltail_moment_ratio
    horizontaltail_aspect_ratio horizontaltail_taper_ratio : ℝ) (h0 : 0 <
    horizontaltail_volume_coefficient) (h1 : 0 < wing_area) (h2 : 0 < horizontaltail_moment_ratio)
    (h3 : 0 < horizontaltail_aspect_ratio) (h4 : 0 < horizontaltail_taper_ratio) :
    HasDerivAt (fun t => out_horizontaltail_root_chord t wing_area horizontaltail_moment_ratio horizontaltail_aspect_ratio horizontaltail_taper_ratio) (J_horizontaltail_root_chord__horizontaltail_volume_coefficient horizontaltail_volume_coefficient wing_area horizontaltail_moment_ratio horizontaltail_aspect_ratio horizontaltail_taper_ratio) horizontaltail_volume_coefficient := by
  simp only [out_horizontaltail_root_chord, J_horizontaltail_root_chord__horizontaltail_volume_coefficient, cse2, cse1, rchord, span, area, sqrt_eq_rpow]
  (apply hasDerivAt_of_eq; on_goal 1 => (repeat' comp_step))
  all_goals try comp_side
  all_goals try simp (disch := first | assumption | positivity) only [div_mul_eq_div_div, div_half, inv_half]
  all_goals try simp only [mul_zero, zero_mul, add_zero, zero_add, sub_zero, zero_sub, mul_one, one_mul]
  all_goals try push_cast
  all_goals comp_eq

theorem d_horizontaltail_root_chord__wing_area (horizontaltail_volume_coefficient wing_area
    horizontaltail_moment_ratio horizontaltail_aspect_ratio horizontaltail_taper_ratio : ℝ) (h0 :
    0 < horizontaltail_volume_coefficient) (h1 : 0 < wing_area) (h2 : 0 <
    horizontaltail_moment_ratio) (h3 : 0 < horizontaltail_aspect_ratio) (h4 : 0 <
    horizontaltail_taper_ratio) :
    HasDerivAt (fun t => out_horizontaltail_root_chord horizontaltail_volume_coefficient t horizontaltail_moment_ratio horizontaltail_aspect_ratio horizontaltail_taper_ratio) (J_horizontaltail_root_chord__wing_area horizontaltail_volume_coefficient wing_area horizontaltail_moment_ratio horizontaltail_aspect_ratio horizontaltail_taper_ratio) wing_area := by
  simp only [out_horizontaltail_root_chord, J_horizontaltail_root_chord__wing_area, cse2, cse1, rchord, span, area, sqrt_eq_rpow]
  (apply hasDerivAt_of_eq; on_goal 1 => (repeat' comp_step))
  all_goals try comp_side
  all_goals try simp (disch := first | assumption | positivity) only [div_mul_eq_div_div, div_half, inv_half]
  all_goals try simp only [mul_zero, zero_mul, add_zero, zero_add, sub_zero, zero_sub, mul_one, one_mul]
  all_goals try push_cast
  all_goals comp_eq

theorem d_horizontaltail_root_chord__horizontaltail_moment_ratio
    (horizontaltail_volume_coefficient wing_area horizontaltail_moment_ratio
    horizontaltail_aspect_ratio horizontaltail_taper_ratio : ℝ) (h0 : 0 <
    horizontaltail_volume_coefficient) (h1 : 0 < wing_area) (h2 : 0 < horizontaltail_moment_ratio)
    (h3 : 0 < horizontaltail_aspect_ratio) (h4 : 0 < horizontaltail_taper_ratio) :
    HasDerivAt (fun t => out_horizontaltail_root_chord horizontaltail_volume_coefficient wing_area t horizontaltail_aspect_ratio horizontaltail_taper_ratio) (J_horizontaltail_root_chord__horizontaltail_moment_ratio horizontaltail_volume_coefficient wing_area horizontaltail_moment_ratio horizontaltail_aspect_ratio horizontaltail_taper_ratio) horizontaltail_moment_ratio := by
  simp only [out_horizontaltail_root_chord, J_horizontaltail_root_chord__horizontaltail_moment_ratio, cse2, cse1, rchord, span, area, sqrt_eq_rpow]
  (apply hasDerivAt_of_eq; on_goal 1 => (repeat' comp_step))
  all_goals try comp_side
  all_goals try simp (disch := first | assumption | positivity) only [div_mul_eq_div_div, div_half, inv_half]
  all_goals try simp only [mul_zero, zero_mul, add_zero, zero_add, sub_zero, zero_sub, mul_one, one_mul]
  all_goals try push_cast
  all_goals comp_eq

theorem d_horizontaltail_root_chord__horizontaltail_aspect_ratio
    (horizontaltail_volume_coefficient wing_area horizontaltail_moment_ratio
    horizontaltail_aspect_ratio horizontaltail_taper_ratio : ℝ) (h0 : 0 <
    horizontaltail_volume_coefficient) (h1 : 0 < wing_area) (h2 : 0 < horizontaltail_moment_ratio)
    (h3 : 0 < horizontaltail_aspect_ratio) (h4 : 0 < horizontaltail_taper_ratio) :
    HasDerivAt (fun t => out_horizontaltail_root_chord horizontaltail_volume_coefficient wing_area horizontaltail_moment_ratio t horizontaltail_taper_ratio) (J_horizontaltail_root_chord__horizontaltail_aspect_ratio horizontaltail_volume_coefficient wing_area horizontaltail_moment_ratio horizontaltail_aspect_ratio horizontaltail_taper_ratio) horizontaltail_aspect_ratio := by
  simp only [out_horizontaltail_root_chord, J_horizontaltail_root_chord__horizontaltail_aspect_ratio, cse2, cse1, rchord, span, area, sqrt_eq_rpow]
  (apply hasDerivAt_of_eq; on_goal 1 => (repeat' comp_step))
  all_goals try comp_side
  all_goals try simp (disch := first | assumption | positivity) only [div_mul_eq_div_div, div_half, inv_half]
  all_goals try simp only [mul_zero, zero_mul, add_zero, zero_add, sub_zero, zero_sub, mul_one, one_mul]
  all_goals try push_cast
  all_goals comp_eq

theorem d_horizontaltail_root_chord__horizontaltail_taper_ratio (horizontaltail_volume_coefficient
    wing_area horizontaltail_moment_ratio horizontaltail_aspect_ratio horizontaltail_taper_ratio :
    ℝ) (h0 : 0 < horizontaltail_volume_coefficient) (h1 : 0 < wing_area) (h2 : 0 <
    horizontaltail_moment_ratio) (h3 : 0 < horizontaltail_aspect_ratio) (h4 : 0 <
    horizontaltail_taper_ratio) :
    HasDerivAt (fun t => out_horizontaltail_root_chord horizontaltail_volume_coefficient wing_area horizontaltail_moment_ratio horizontaltail_aspect_ratio t) (J_horizontaltail_root_chord__horizontaltail_taper_ratio horizontaltail_volume_coefficient wing_area horizontaltail_moment_ratio horizontaltail_aspect_ratio horizontaltail_taper_ratio) horizontaltail_taper_ratio := by
  simp only [out_horizontaltail_root_chord, J_horizontaltail_root_chord__horizontaltail_taper_ratio, cse2, cse1, rchord, span, area, sqrt_eq_rpow]
  (apply hasDerivAt_of_eq; on_goal 1 => (repeat' comp_step))
  all_goals try comp_side
  all_goals try simp (disch := first | assumption | positivity) only [div_mul_eq_div_div, div_half, inv_half]
  all_goals try simp only [mul_zero, zero_mul, add_zero, zero_add, sub_zero, zero_sub, mul_one, one_mul]
  all_goals try push_cast
  all_goals comp_eq

theorem d_horizontaltail_average_chord__horizontaltail_volume_coefficient
    (horizontaltail_volume_coefficient wing_area horizontaltail_moment_ratio
    horizontaltail_aspect_ratio horizontaltail_taper_ratio : ℝ) (h0 : 0 <
    horizontaltail_volume_coefficient) (h1 : 0 < wing_area) (h2 : 0 < horizontaltail_moment_ratio)
    (h3 : 0 < horizontaltail_aspect_ratio) (h4 : 0 < horizontaltail_taper_ratio) :
    HasDerivAt (fun t => out_horizontaltail_average_chord t wing_area horizontaltail_moment_ratio horizontaltail_aspect_ratio horizontaltail_taper_ratio) (J_horizontaltail_average_chord__horizontaltail_volume_coefficient horizontaltail_volume_coefficient wing_area horizontaltail_moment_ratio horizontaltail_aspect_ratio horizontaltail_taper_ratio) horizontaltail_volume_coefficient := by
  simp only [out_horizontaltail_average_chord, J_horizontaltail_average_chord__horizontaltail_volume_coefficient, cse2, cse1, cse3, chord, rchord, span, area, sqrt_eq_rpow]
  (apply hasDerivAt_of_eq; on_goal 1 => (repeat' comp_step))
  all_goals try comp_side
  all_goals try simp (disch := first | assumption | positivity) only [div_mul_eq_div_div, div_half, inv_half]
  all_goals try simp only [mul_zero, zero_mul, add_zero, zero_add, sub_zero, zero_sub, mul_one, one_mul]
  all_goals try push_cast
  all_goals comp_eq

theorem d_horizontaltail_average_chord__wing_area (horizontaltail_volume_coefficient wing_area
    horizontaltail_moment_ratio horizontaltail_aspect_ratio horizontaltail_taper_ratio : ℝ) (h0 :
    0 < horizontaltail_volume_coefficient) (h1 : 0 < wing_area) (h2 : 0 <
    horizontaltail_moment_ratio) (h3 : 0 < horizontaltail_aspect_ratio) (h4 : 0 <
    horizontaltail_taper_ratio) :
    HasDerivAt (fun t => out_horizontaltail_average_chord horizontaltail_volume_coefficient t horizontaltail_moment_ratio horizontaltail_aspect_ratio horizontaltail_taper_ratio) (J_horizontaltail_average_chord__wing_area horizontaltail_volume_coefficient wing_area horizontaltail_moment_ratio horizontaltail_aspect_ratio horizontaltail_taper_ratio) wing_area := by
  simp only [out_horizontaltail_average_chord, J_horizontaltail_average_chord__wing_area, cse2, cse1, cse3, chord, rchord, span, area, sqrt_eq_rpow]
  (apply hasDerivAt_of_eq; on_goal 1 => (repeat' comp_step))
  all_goals try comp_side
  all_goals try simp (disch := first | assumption | positivity) only [div_mul_eq_div_div, div_half, inv_half]
  all_goals try simp only [mul_zero, zero_mul, add_zero, zero_add, sub_zero, zero_sub, mul_one, one_mul]
  all_goals try push_cast
  all_goals comp_eq

theorem d_horizontaltail_average_chord__horizontaltail_moment_ratio
    (horizontaltail_volume_coefficient wing_area horizontaltail_moment_ratio
    horizontaltail_aspect_ratio horizontaltail_taper_ratio : ℝ) (h0 : 0 <
    horizontaltail_volume_coefficient) (h1 : 0 < wing_area) (h2 : 0 < horizontaltail_moment_ratio)
    (h3 : 0 < horizontaltail_aspect_ratio) (h4 : 0 < horizontaltail_taper_ratio) :
    HasDerivAt (fun t => out_horizontaltail_average_chord horizontaltail_volume_coefficient wing_area t horizontaltail_aspect_ratio horizontaltail_taper_ratio) (J_horizontaltail_average_chord__horizontaltail_moment_ratio horizontaltail_volume_coefficient wing_area horizontaltail_moment_ratio horizontaltail_aspect_ratio horizontaltail_taper_ratio) horizontaltail_moment_ratio := by
  simp only [out_horizontaltail_average_chord, J_horizontaltail_average_chord__horizontaltail_moment_ratio, cse2, cse1, cse3, chord, rchord, span, area, sqrt_eq_rpow]
  (apply hasDerivAt_of_eq; on_goal 1 => (repeat' comp_step))
  all_goals try comp_side
  all_goals try simp (disch := first | assumption | positivity) only [div_mul_eq_div_div, div_half, inv_half]
  all_goals try simp only [mul_zero, zero_mul, add_zero, zero_add, sub_zero, zero_sub, mul_one, one_mul]
  all_goals try push_cast
  all_goals comp_eq

theorem d_horizontaltail_average_chord__horizontaltail_aspect_ratio
    (horizontaltail_volume_coefficient wing_area horizontaltail_moment_ratio
    horizontaltail_aspect_ratio horizontaltail_taper_ratio : ℝ) (h0 : 0 <
    horizontaltail_volume_coefficient) (h1 : 0 < wing_area) (h2 : 0 < horizontaltail_moment_ratio)
    (h3 : 0 < horizontaltail_aspect_ratio) (h4 : 0 < horizontaltail_taper_ratio) :
    HasDerivAt (fun t => out_horizontaltail_average_chord horizontaltail_volume_coefficient wing_area horizontaltail_moment_ratio t horizontaltail_taper_ratio) (J_horizontaltail_average_chord__horizontaltail_aspect_ratio horizontaltail_volume_coefficient wing_area horizontaltail_moment_ratio horizontaltail_aspect_ratio horizontaltail_taper_ratio) horizontaltail_aspect_ratio := by
  simp only [out_horizontaltail_average_chord, J_horizontaltail_average_chord__horizontaltail_aspect_ratio, cse2, cse1, cse3, chord, rchord, span, area, sqrt_eq_rpow]
  (apply hasDerivAt_of_eq; on_goal 1 => (repeat' comp_step))
  all_goals try comp_side
  all_goals try simp (disch := first | assumption | positivity) only [div_mul_eq_div_div, div_half, inv_half]
  all_goals try simp only [mul_zero, zero_mul, add_zero, zero_add, sub_zero, zero_sub, mul_one, one_mul]
  all_goals try push_cast
  all_goals comp_eq

theorem d_horizontaltail_average_chord__horizontaltail_taper_ratio
    (horizontaltail_volume_coefficient wing_area horizontaltail_moment_ratio
    horizontaltail_aspect_ratio horizontaltail_taper_ratio : ℝ) (h0 : 0 <
    horizontaltail_volume_coefficient) (h1 : 0 < wing_area) (h2 : 0 < horizontaltail_moment_ratio)
    (h3 : 0 < horizontaltail_aspect_ratio) (h4 : 0 < horizontaltail_taper_ratio) :
    HasDerivAt (fun t => out_horizontaltail_average_chord horizontaltail_volume_coefficient wing_area horizontaltail_moment_ratio horizontaltail_aspect_ratio t) (J_horizontaltail_average_chord__horizontaltail_taper_ratio horizontaltail_volume_coefficient wing_area horizontaltail_moment_ratio horizontaltail_aspect_ratio horizontaltail_taper_ratio) horizontaltail_taper_ratio := by
  simp only [out_horizontaltail_average_chord, J_horizontaltail_average_chord__horizontaltail_taper_ratio, cse1, chord, rchord, span, area, sqrt_eq_rpow]
  (apply hasDerivAt_of_eq; on_goal 1 => (repeat' comp_step))
  all_goals try comp_side
  all_goals try simp (disch := first | assumption | positivity) only [div_mul_eq_div_div, div_half, inv_half]
  all_goals try simp only [mul_zero, zero_mul, add_zero, zero_add, sub_zero, zero_sub, mul_one, one_mul]
  all_goals try push_cast
  all_goals comp_eq

theorem d_horizontaltail_moment_arm__horizontaltail_moment_ratio (horizontaltail_moment_ratio
    wing_average_chord : ℝ) (h0 : 0 < horizontaltail_moment_ratio) :
    HasDerivAt (fun t => out_horizontaltail_moment_arm t wing_average_chord) (J_horizontaltail_moment_arm__horizontaltail_moment_ratio horizontaltail_moment_ratio wing_average_chord) horizontaltail_moment_ratio := by
  simp only [out_horizontaltail_moment_arm, J_horizontaltail_moment_arm__horizontaltail_moment_ratio, arm]
  (apply hasDerivAt_of_eq; on_goal 1 => (repeat' comp_step))
  all_goals try comp_side
  all_goals try simp only [mul_zero, zero_mul, add_zero, zero_add, sub_zero, zero_sub, mul_one, one_mul]
  all_goals try push_cast
  all_goals comp_eq

theorem d_horizontaltail_moment_arm__wing_average_chord (horizontaltail_moment_ratio
    wing_average_chord : ℝ) (h0 : 0 < horizontaltail_moment_ratio) :
    HasDerivAt (fun t => out_horizontaltail_moment_arm horizontaltail_moment_ratio t) (J_horizontaltail_moment_arm__wing_average_chord horizontaltail_moment_ratio) wing_average_chord := by
  simp only [out_horizontaltail_moment_arm, J_horizontaltail_moment_arm__wing_average_chord, arm]
  (apply hasDerivAt_of_eq; on_goal 1 => (repeat' comp_step))
  all_goals try comp_side
  all_goals try simp only [mul_zero, zero_mul, add_zero, zero_add, sub_zero, zero_sub, mul_one, one_mul]
  all_goals try push_cast
  all_goals comp_eq

/-- Every partial derivative set by `TailSize` is the derivative of its output. -/
theorem partials (horizontaltail_volume_coefficient wing_area horizontaltail_moment_ratio
    wing_average_chord horizontaltail_aspect_ratio horizontaltail_taper_ratio : ℝ) (h0 : 0 <
    horizontaltail_volume_coefficient) (h1 : 0 < wing_area) (h2 : 0 < horizontaltail_moment_ratio)
    (h3 : 0 < horizontaltail_aspect_ratio) (h4 : 0 < horizontaltail_taper_ratio) :
    HasDerivAt (fun t => out_horizontaltail_area t wing_area horizontaltail_moment_ratio)
      (J_horizontaltail_area__horizontaltail_volume_coefficient wing_area
      horizontaltail_moment_ratio) horizontaltail_volume_coefficient ∧
    HasDerivAt (fun t => out_horizontaltail_area horizontaltail_volume_coefficient t
      horizontaltail_moment_ratio) (J_horizontaltail_area__wing_area
      horizontaltail_volume_coefficient horizontaltail_moment_ratio) wing_area ∧
    HasDerivAt (fun t => out_horizontaltail_area horizontaltail_volume_coefficient wing_area t)
      (J_horizontaltail_area__horizontaltail_moment_ratio horizontaltail_volume_coefficient
      wing_area) horizontaltail_moment_ratio ∧
    HasDerivAt (fun t => out_horizontaltail_span t wing_area horizontaltail_moment_ratio
      horizontaltail_aspect_ratio) (J_horizontaltail_span__horizontaltail_volume_coefficient
      horizontaltail_volume_coefficient wing_area horizontaltail_moment_ratio
      horizontaltail_aspect_ratio) horizontaltail_volume_coefficient ∧
    HasDerivAt (fun t => out_horizontaltail_span horizontaltail_volume_coefficient t
      horizontaltail_moment_ratio horizontaltail_aspect_ratio) (J_horizontaltail_span__wing_area
      horizontaltail_volume_coefficient wing_area horizontaltail_moment_ratio
      horizontaltail_aspect_ratio) wing_area ∧
    HasDerivAt (fun t => out_horizontaltail_span horizontaltail_volume_coefficient wing_area t
      horizontaltail_aspect_ratio) (J_horizontaltail_span__horizontaltail_moment_ratio
      horizontaltail_volume_coefficient wing_area horizontaltail_moment_ratio
      horizontaltail_aspect_ratio) horizontaltail_moment_ratio ∧
    HasDerivAt (fun t => out_horizontaltail_span horizontaltail_volume_coefficient wing_area
      horizontaltail_moment_ratio t) (J_horizontaltail_span__horizontaltail_aspect_ratio
      horizontaltail_volume_coefficient wing_area horizontaltail_moment_ratio
      horizontaltail_aspect_ratio) horizontaltail_aspect_ratio ∧
    HasDerivAt (fun t => out_horizontaltail_root_chord t wing_area horizontaltail_moment_ratio
      horizontaltail_aspect_ratio horizontaltail_taper_ratio)
      (J_horizontaltail_root_chord__horizontaltail_volume_coefficient
      horizontaltail_volume_coefficient wing_area horizontaltail_moment_ratio
      horizontaltail_aspect_ratio horizontaltail_taper_ratio) horizontaltail_volume_coefficient ∧
    HasDerivAt (fun t => out_horizontaltail_root_chord horizontaltail_volume_coefficient t
      horizontaltail_moment_ratio horizontaltail_aspect_ratio horizontaltail_taper_ratio)
      (J_horizontaltail_root_chord__wing_area horizontaltail_volume_coefficient wing_area
      horizontaltail_moment_ratio horizontaltail_aspect_ratio horizontaltail_taper_ratio)
      wing_area ∧
    HasDerivAt (fun t => out_horizontaltail_root_chord horizontaltail_volume_coefficient wing_area t
      horizontaltail_aspect_ratio horizontaltail_taper_ratio)
      (J_horizontaltail_root_chord__horizontaltail_moment_ratio horizontaltail_volume_coefficient
      wing_area horizontaltail_moment_ratio horizontaltail_aspect_ratio
      horizontaltail_taper_ratio) horizontaltail_moment_ratio ∧
    HasDerivAt (fun t => out_horizontaltail_root_chord horizontaltail_volume_coefficient wing_area
      horizontaltail_moment_ratio t horizontaltail_taper_ratio)
      (J_horizontaltail_root_chord__horizontaltail_aspect_ratio horizontaltail_volume_coefficient
      wing_area horizontaltail_moment_ratio horizontaltail_aspect_ratio
      horizontaltail_taper_ratio) horizontaltail_aspect_ratio ∧
    HasDerivAt (fun t => out_horizontaltail_root_chord horizontaltail_volume_coefficient wing_area
      horizontaltail_moment_ratio horizontaltail_aspect_ratio t)
      (J_horizontaltail_root_chord__horizontaltail_taper_ratio horizontaltail_volume_coefficient
      wing_area horizontaltail_moment_ratio horizontaltail_aspect_ratio
      horizontaltail_taper_ratio) horizontaltail_taper_ratio ∧
    HasDerivAt (fun t => out_horizontaltail_average_chord t wing_area horizontaltail_moment_ratio
      horizontaltail_aspect_ratio horizontaltail_taper_ratio)
      (J_horizontaltail_average_chord__horizontaltail_volume_coefficient
      horizontaltail_volume_coefficient wing_area horizontaltail_moment_ratio
      horizontaltail_aspect_ratio horizontaltail_taper_ratio) horizontaltail_volume_coefficient ∧
    HasDerivAt (fun t => out_horizontaltail_average_chord horizontaltail_volume_coefficient t
      horizontaltail_moment_ratio horizontaltail_aspect_ratio horizontaltail_taper_ratio)
      (J_horizontaltail_average_chord__wing_area horizontaltail_volume_coefficient wing_area
      horizontaltail_moment_ratio horizontaltail_aspect_ratio horizontaltail_taper_ratio)
      wing_area ∧
    HasDerivAt (fun t => out_horizontaltail_average_chord horizontaltail_volume_coefficient wing_area
      t horizontaltail_aspect_ratio horizontaltail_taper_ratio)
      (J_horizontaltail_average_chord__horizontaltail_moment_ratio
      horizontaltail_volume_coefficient wing_area horizontaltail_moment_ratio
      horizontaltail_aspect_ratio horizontaltail_taper_ratio) horizontaltail_moment_ratio ∧
    HasDerivAt (fun t => out_horizontaltail_average_chord horizontaltail_volume_coefficient wing_area
      horizontaltail_moment_ratio t horizontaltail_taper_ratio)
      (J_horizontaltail_average_chord__horizontaltail_aspect_ratio
      horizontaltail_volume_coefficient wing_area horizontaltail_moment_ratio
      horizontaltail_aspect_ratio horizontaltail_taper_ratio) horizontaltail_aspect_ratio ∧
    HasDerivAt (fun t => out_horizontaltail_average_chord horizontaltail_volume_coefficient wing_area
      horizontaltail_moment_ratio horizontaltail_aspect_ratio t)
      (J_horizontaltail_average_chord__horizontaltail_taper_ratio
      horizontaltail_volume_coefficient wing_area horizontaltail_moment_ratio
      horizontaltail_aspect_ratio horizontaltail_taper_ratio) horizontaltail_taper_ratio ∧
    HasDerivAt (fun t => out_horizontaltail_moment_arm t wing_average_chord)
      (J_horizontaltail_moment_arm__horizontaltail_moment_ratio horizontaltail_moment_ratio
      wing_average_chord) horizontaltail_moment_ratio ∧
    HasDerivAt (fun t => out_horizontaltail_moment_arm horizontaltail_moment_ratio t)
      (J_horizontaltail_moment_arm__wing_average_chord horizontaltail_moment_ratio)
      wing_average_chord :=
  ⟨d_horizontaltail_area__horizontaltail_volume_coefficient _ _ _,
    d_horizontaltail_area__wing_area _ _ _, d_horizontaltail_area__horizontaltail_moment_ratio _ _
    _, d_horizontaltail_span__horizontaltail_volume_coefficient _ _ _ _ h0 h1 h2 h3,
    d_horizontaltail_span__wing_area _ _ _ _ h0 h1 h2 h3,
    d_horizontaltail_span__horizontaltail_moment_ratio _ _ _ _ h0 h1 h2 h3,
    d_horizontaltail_span__horizontaltail_aspect_ratio _ _ _ _ h0 h1 h2 h3,
    d_horizontaltail_root_chord__horizontaltail_volume_coefficient _ _ _ _ _ h0 h1 h2 h3 h4,
    d_horizontaltail_root_chord__wing_area _ _ _ _ _ h0 h1 h2 h3 h4,
    d_horizontaltail_root_chord__horizontaltail_moment_ratio _ _ _ _ _ h0 h1 h2 h3 h4,
    d_horizontaltail_root_chord__horizontaltail_aspect_ratio _ _ _ _ _ h0 h1 h2 h3 h4,
    d_horizontaltail_root_chord__horizontaltail_taper_ratio _ _ _ _ _ h0 h1 h2 h3 h4,
    d_horizontaltail_average_chord__horizontaltail_volume_coefficient _ _ _ _ _ h0 h1 h2 h3 h4,
    d_horizontaltail_average_chord__wing_area _ _ _ _ _ h0 h1 h2 h3 h4,
    d_horizontaltail_average_chord__horizontaltail_moment_ratio _ _ _ _ _ h0 h1 h2 h3 h4,
    d_horizontaltail_average_chord__horizontaltail_aspect_ratio _ _ _ _ _ h0 h1 h2 h3 h4,
    d_horizontaltail_average_chord__horizontaltail_taper_ratio _ _ _ _ _ h0 h1 h2 h3 h4,
    d_horizontaltail_moment_arm__horizontaltail_moment_ratio _ _ h2,
    d_horizontaltail_moment_arm__wing_average_chord _ _ h2⟩

example : ∃ horizontaltail_volume_coefficient wing_area horizontaltail_moment_ratio
      wing_average_chord horizontaltail_aspect_ratio horizontaltail_taper_ratio : ℝ,
      0 < horizontaltail_volume_coefficient ∧
      0 < wing_area ∧
      0 < horizontaltail_moment_ratio ∧
      0 < horizontaltail_aspect_ratio ∧
      0 < horizontaltail_taper_ratio :=
  ⟨1, 1, 1, 0, 1, 1, by comp_example, by comp_example, by comp_example, by comp_example, by
    comp_example⟩

end Verif.Comp.GeometryGaspBasedEmpennage.TailSize_horizontal

namespace Verif.Comp.GeometryGaspBasedEmpennage.TailSize_otherorientation
open Real

/-- aviary/subsystems/geometry/gasp_based/empennage.py:181 -/
noncomputable def area (verticaltail_volume_coefficient wing_area verticaltail_moment_ratio : ℝ) : ℝ :=
  (verticaltail_volume_coefficient * wing_area) * verticaltail_moment_ratio

/-- aviary/subsystems/geometry/gasp_based/empennage.py:182 -/
noncomputable def span (verticaltail_volume_coefficient wing_area verticaltail_moment_ratio verticaltail_aspect_ratio : ℝ) : ℝ :=
  sqrt ((area verticaltail_volume_coefficient wing_area verticaltail_moment_ratio) *
    verticaltail_aspect_ratio)

/-- aviary/subsystems/geometry/gasp_based/empennage.py:183 -/
noncomputable def rchord (verticaltail_volume_coefficient wing_area verticaltail_moment_ratio verticaltail_aspect_ratio verticaltail_taper_ratio : ℝ) : ℝ :=
  ((2 * (area verticaltail_volume_coefficient wing_area verticaltail_moment_ratio)) / (span
    verticaltail_volume_coefficient wing_area verticaltail_moment_ratio
    verticaltail_aspect_ratio)) / (1 + verticaltail_taper_ratio)

/-- aviary/subsystems/geometry/gasp_based/empennage.py:184 -/
noncomputable def chord (verticaltail_volume_coefficient wing_area verticaltail_moment_ratio verticaltail_aspect_ratio verticaltail_taper_ratio : ℝ) : ℝ :=
  ((2 / 3) * (rchord verticaltail_volume_coefficient wing_area verticaltail_moment_ratio
    verticaltail_aspect_ratio verticaltail_taper_ratio)) * ((1 + verticaltail_taper_ratio) -
    (verticaltail_taper_ratio / (1 + verticaltail_taper_ratio)))

/-- aviary/subsystems/geometry/gasp_based/empennage.py:185 -/
noncomputable def arm (verticaltail_moment_ratio wing_span : ℝ) : ℝ :=
  wing_span / verticaltail_moment_ratio

/-- aviary/subsystems/geometry/gasp_based/empennage.py:211 -/
noncomputable def cse1 (verticaltail_volume_coefficient wing_area verticaltail_moment_ratio verticaltail_aspect_ratio : ℝ) : ℝ :=
  sqrt (((verticaltail_volume_coefficient * wing_area) * verticaltail_moment_ratio) *
    verticaltail_aspect_ratio)

/-- aviary/subsystems/geometry/gasp_based/empennage.py:217 -/
noncomputable def cse2 (verticaltail_volume_coefficient wing_area verticaltail_moment_ratio verticaltail_aspect_ratio verticaltail_taper_ratio : ℝ) : ℝ :=
  (cse1 verticaltail_volume_coefficient wing_area verticaltail_moment_ratio
    verticaltail_aspect_ratio) * (verticaltail_taper_ratio + 1)

/-- aviary/subsystems/geometry/gasp_based/empennage.py:224 -/
noncomputable def cse3 (verticaltail_taper_ratio : ℝ) : ℝ :=
  (verticaltail_taper_ratio - (verticaltail_taper_ratio / (verticaltail_taper_ratio + 1))) + 1

/-- Output `verticaltail_area` of `TailSize.compute`, aviary/subsystems/geometry/gasp_based/empennage.py:187 -/
noncomputable def out_verticaltail_area (verticaltail_volume_coefficient wing_area verticaltail_moment_ratio : ℝ) : ℝ :=
  area verticaltail_volume_coefficient wing_area verticaltail_moment_ratio

/-- Output `verticaltail_span` of `TailSize.compute`, aviary/subsystems/geometry/gasp_based/empennage.py:188 -/
noncomputable def out_verticaltail_span (verticaltail_volume_coefficient wing_area verticaltail_moment_ratio verticaltail_aspect_ratio : ℝ) : ℝ :=
  span verticaltail_volume_coefficient wing_area verticaltail_moment_ratio
    verticaltail_aspect_ratio

/-- Output `verticaltail_root_chord` of `TailSize.compute`, aviary/subsystems/geometry/gasp_based/empennage.py:189 -/
noncomputable def out_verticaltail_root_chord (verticaltail_volume_coefficient wing_area verticaltail_moment_ratio verticaltail_aspect_ratio verticaltail_taper_ratio : ℝ) : ℝ :=
  rchord verticaltail_volume_coefficient wing_area verticaltail_moment_ratio
    verticaltail_aspect_ratio verticaltail_taper_ratio

/-- Output `verticaltail_average_chord` of `TailSize.compute`, aviary/subsystems/geometry/gasp_based/empennage.py:190 -/
noncomputable def out_verticaltail_average_chord (verticaltail_volume_coefficient wing_area verticaltail_moment_ratio verticaltail_aspect_ratio verticaltail_taper_ratio : ℝ) : ℝ :=
  chord verticaltail_volume_coefficient wing_area verticaltail_moment_ratio
    verticaltail_aspect_ratio verticaltail_taper_ratio

/-- Output `verticaltail_moment_arm` of `TailSize.compute`, aviary/subsystems/geometry/gasp_based/empennage.py:191 -/
noncomputable def out_verticaltail_moment_arm (verticaltail_moment_ratio wing_span : ℝ) : ℝ :=
  arm verticaltail_moment_ratio wing_span

/-- Partial of `verticaltail_area` with respect to `verticaltail_volume_coefficient` as set by `TailSize`, aviary/subsystems/geometry/gasp_based/empennage.py:207 -/
noncomputable def J_verticaltail_area__verticaltail_volume_coefficient (wing_area verticaltail_moment_ratio : ℝ) : ℝ :=
  wing_area * verticaltail_moment_ratio

/-- Partial of `verticaltail_area` with respect to `wing_area` as set by `TailSize`, aviary/subsystems/geometry/gasp_based/empennage.py:208 -/
noncomputable def J_verticaltail_area__wing_area (verticaltail_volume_coefficient verticaltail_moment_ratio : ℝ) : ℝ :=
  verticaltail_volume_coefficient * verticaltail_moment_ratio

/-- Partial of `verticaltail_area` with respect to `verticaltail_moment_ratio` as set by `TailSize`, aviary/subsystems/geometry/gasp_based/empennage.py:209 -/
noncomputable def J_verticaltail_area__verticaltail_moment_ratio (verticaltail_volume_coefficient wing_area : ℝ) : ℝ :=
  verticaltail_volume_coefficient * wing_area

/-- Partial of `verticaltail_span` with respect to `verticaltail_volume_coefficient` as set by `TailSize`, aviary/subsystems/geometry/gasp_based/empennage.py:212 -/
noncomputable def J_verticaltail_span__verticaltail_volume_coefficient (verticaltail_volume_coefficient wing_area verticaltail_moment_ratio verticaltail_aspect_ratio : ℝ) : ℝ :=
  (cse1 verticaltail_volume_coefficient wing_area verticaltail_moment_ratio
    verticaltail_aspect_ratio) / (2 * verticaltail_volume_coefficient)

/-- Partial of `verticaltail_span` with respect to `wing_area` as set by `TailSize`, aviary/subsystems/geometry/gasp_based/empennage.py:213 -/
noncomputable def J_verticaltail_span__wing_area (verticaltail_volume_coefficient wing_area verticaltail_moment_ratio verticaltail_aspect_ratio : ℝ) : ℝ :=
  (cse1 verticaltail_volume_coefficient wing_area verticaltail_moment_ratio
    verticaltail_aspect_ratio) / (2 * wing_area)

/-- Partial of `verticaltail_span` with respect to `verticaltail_moment_ratio` as set by `TailSize`, aviary/subsystems/geometry/gasp_based/empennage.py:214 -/
noncomputable def J_verticaltail_span__verticaltail_moment_ratio (verticaltail_volume_coefficient wing_area verticaltail_moment_ratio verticaltail_aspect_ratio : ℝ) : ℝ :=
  (cse1 verticaltail_volume_coefficient wing_area verticaltail_moment_ratio
    verticaltail_aspect_ratio) / (2 * verticaltail_moment_ratio)

/-- Partial of `verticaltail_span` with respect to `verticaltail_aspect_ratio` as set by `TailSize`, aviary/subsystems/geometry/gasp_based/empennage.py:215 -/
noncomputable def J_verticaltail_span__verticaltail_aspect_ratio (verticaltail_volume_coefficient wing_area verticaltail_moment_ratio verticaltail_aspect_ratio : ℝ) : ℝ :=
  (cse1 verticaltail_volume_coefficient wing_area verticaltail_moment_ratio
    verticaltail_aspect_ratio) / (2 * verticaltail_aspect_ratio)

/-- Partial of `verticaltail_root_chord` with respect to `verticaltail_volume_coefficient` as set by `TailSize`, aviary/subsystems/geometry/gasp_based/empennage.py:218 -/
noncomputable def J_verticaltail_root_chord__verticaltail_volume_coefficient (verticaltail_volume_coefficient wing_area verticaltail_moment_ratio verticaltail_aspect_ratio verticaltail_taper_ratio : ℝ) : ℝ :=
  (wing_area * verticaltail_moment_ratio) / (cse2 verticaltail_volume_coefficient wing_area
    verticaltail_moment_ratio verticaltail_aspect_ratio verticaltail_taper_ratio)

/-- Partial of `verticaltail_root_chord` with respect to `wing_area` as set by `TailSize`, aviary/subsystems/geometry/gasp_based/empennage.py:219 -/
noncomputable def J_verticaltail_root_chord__wing_area (verticaltail_volume_coefficient wing_area verticaltail_moment_ratio verticaltail_aspect_ratio verticaltail_taper_ratio : ℝ) : ℝ :=
  (verticaltail_volume_coefficient * verticaltail_moment_ratio) / (cse2
    verticaltail_volume_coefficient wing_area verticaltail_moment_ratio
    verticaltail_aspect_ratio verticaltail_taper_ratio)

/-- Partial of `verticaltail_root_chord` with respect to `verticaltail_moment_ratio` as set by `TailSize`, aviary/subsystems/geometry/gasp_based/empennage.py:220 -/
noncomputable def J_verticaltail_root_chord__verticaltail_moment_ratio (verticaltail_volume_coefficient wing_area verticaltail_moment_ratio verticaltail_aspect_ratio verticaltail_taper_ratio : ℝ) : ℝ :=
  (wing_area * verticaltail_volume_coefficient) / (cse2 verticaltail_volume_coefficient
    wing_area verticaltail_moment_ratio verticaltail_aspect_ratio verticaltail_taper_ratio)

/-- Partial of `verticaltail_root_chord` with respect to `verticaltail_aspect_ratio` as set by `TailSize`, aviary/subsystems/geometry/gasp_based/empennage.py:221 -/
noncomputable def J_verticaltail_root_chord__verticaltail_aspect_ratio (verticaltail_volume_coefficient wing_area verticaltail_moment_ratio verticaltail_aspect_ratio verticaltail_taper_ratio : ℝ) : ℝ :=
  (((-verticaltail_volume_coefficient) * wing_area) * verticaltail_moment_ratio) /
    (verticaltail_aspect_ratio * (cse2 verticaltail_volume_coefficient wing_area
    verticaltail_moment_ratio verticaltail_aspect_ratio verticaltail_taper_ratio))

/-- Partial of `verticaltail_root_chord` with respect to `verticaltail_taper_ratio` as set by `TailSize`, aviary/subsystems/geometry/gasp_based/empennage.py:222 -/
noncomputable def J_verticaltail_root_chord__verticaltail_taper_ratio (verticaltail_volume_coefficient wing_area verticaltail_moment_ratio verticaltail_aspect_ratio verticaltail_taper_ratio : ℝ) : ℝ :=
  ((((-2) * verticaltail_volume_coefficient) * wing_area) * verticaltail_moment_ratio) / ((cse2
    verticaltail_volume_coefficient wing_area verticaltail_moment_ratio
    verticaltail_aspect_ratio verticaltail_taper_ratio) * (verticaltail_taper_ratio + 1))

/-- Partial of `verticaltail_average_chord` with respect to `verticaltail_volume_coefficient` as set by `TailSize`, aviary/subsystems/geometry/gasp_based/empennage.py:225 -/
noncomputable def J_verticaltail_average_chord__verticaltail_volume_coefficient (verticaltail_volume_coefficient wing_area verticaltail_moment_ratio verticaltail_aspect_ratio verticaltail_taper_ratio : ℝ) : ℝ :=
  ((((2 / 3) * wing_area) * verticaltail_moment_ratio) * (cse3 verticaltail_taper_ratio)) /
    (cse2 verticaltail_volume_coefficient wing_area verticaltail_moment_ratio
    verticaltail_aspect_ratio verticaltail_taper_ratio)

/-- Partial of `verticaltail_average_chord` with respect to `wing_area` as set by `TailSize`, aviary/subsystems/geometry/gasp_based/empennage.py:226 -/
noncomputable def J_verticaltail_average_chord__wing_area (verticaltail_volume_coefficient wing_area verticaltail_moment_ratio verticaltail_aspect_ratio verticaltail_taper_ratio : ℝ) : ℝ :=
  ((((2 / 3) * verticaltail_volume_coefficient) * verticaltail_moment_ratio) * (cse3
    verticaltail_taper_ratio)) / (cse2 verticaltail_volume_coefficient wing_area
    verticaltail_moment_ratio verticaltail_aspect_ratio verticaltail_taper_ratio)

/-- Partial of `verticaltail_average_chord` with respect to `verticaltail_moment_ratio` as set by `TailSize`, aviary/subsystems/geometry/gasp_based/empennage.py:227 -/
noncomputable def J_verticaltail_average_chord__verticaltail_moment_ratio (verticaltail_volume_coefficient wing_area verticaltail_moment_ratio verticaltail_aspect_ratio verticaltail_taper_ratio : ℝ) : ℝ :=
  ((((2 / 3) * verticaltail_volume_coefficient) * wing_area) * (cse3 verticaltail_taper_ratio))
    / (cse2 verticaltail_volume_coefficient wing_area verticaltail_moment_ratio
    verticaltail_aspect_ratio verticaltail_taper_ratio)

/-- Partial of `verticaltail_average_chord` with respect to `verticaltail_aspect_ratio` as set by `TailSize`, aviary/subsystems/geometry/gasp_based/empennage.py:228 -/
noncomputable def J_verticaltail_average_chord__verticaltail_aspect_ratio (verticaltail_volume_coefficient wing_area verticaltail_moment_ratio verticaltail_aspect_ratio verticaltail_taper_ratio : ℝ) : ℝ :=
  (((((-(2 / 3)) * verticaltail_volume_coefficient) * wing_area) * verticaltail_moment_ratio) *
    (cse3 verticaltail_taper_ratio)) / (verticaltail_aspect_ratio * (cse2
    verticaltail_volume_coefficient wing_area verticaltail_moment_ratio
    verticaltail_aspect_ratio verticaltail_taper_ratio))

/-- Partial of `verticaltail_average_chord` with respect to `verticaltail_taper_ratio` as set by `TailSize`, aviary/subsystems/geometry/gasp_based/empennage.py:229 -/
noncomputable def J_verticaltail_average_chord__verticaltail_taper_ratio (verticaltail_volume_coefficient wing_area verticaltail_moment_ratio verticaltail_aspect_ratio verticaltail_taper_ratio : ℝ) : ℝ :=
  (((4 / 3) * (cse1 verticaltail_volume_coefficient wing_area verticaltail_moment_ratio
    verticaltail_aspect_ratio)) * (verticaltail_taper_ratio - 1)) / (verticaltail_aspect_ratio *
    ((verticaltail_taper_ratio + 1) ^ 3))

/-- Partial of `verticaltail_moment_arm` with respect to `verticaltail_moment_ratio` as set by `TailSize`, aviary/subsystems/geometry/gasp_based/empennage.py:231 -/
noncomputable def J_verticaltail_moment_arm__verticaltail_moment_ratio (verticaltail_moment_ratio wing_span : ℝ) : ℝ :=
  (-wing_span) / (verticaltail_moment_ratio ^ 2)

/-- Partial of `verticaltail_moment_arm` with respect to `wing_span` as set by `TailSize`, aviary/subsystems/geometry/gasp_based/empennage.py:232 -/
noncomputable def J_verticaltail_moment_arm__wing_span (verticaltail_moment_ratio : ℝ) : ℝ :=
  1 / verticaltail_moment_ratio

theorem d_verticaltail_area__verticaltail_volume_coefficient (verticaltail_volume_coefficient
    wing_area verticaltail_moment_ratio : ℝ)  :
    HasDerivAt (fun t => out_verticaltail_area t wing_area verticaltail_moment_ratio) (J_verticaltail_area__verticaltail_volume_coefficient wing_area verticaltail_moment_ratio) verticaltail_volume_coefficient := by
  simp only [out_verticaltail_area, J_verticaltail_area__verticaltail_volume_coefficient, area]
  (apply hasDerivAt_of_eq; on_goal 1 => (repeat' comp_step))
  all_goals try comp_side
  all_goals try simp only [mul_zero, zero_mul, add_zero, zero_add, sub_zero, zero_sub, mul_one, one_mul]
  all_goals try push_cast
  all_goals comp_eq

theorem d_verticaltail_area__wing_area (verticaltail_volume_coefficient wing_area
    verticaltail_moment_ratio : ℝ)  :
    HasDerivAt (fun t => out_verticaltail_area verticaltail_volume_coefficient t verticaltail_moment_ratio) (J_verticaltail_area__wing_area verticaltail_volume_coefficient verticaltail_moment_ratio) wing_area := by
  simp only [out_verticaltail_area, J_verticaltail_area__wing_area, area]
  (apply hasDerivAt_of_eq; on_goal 1 => (repeat' comp_step))
  all_goals try comp_side
  all_goals try simp only [mul_zero, zero_mul, add_zero, zero_add, sub_zero, zero_sub, mul_one, one_mul]
  all_goals try push_cast
  all_goals comp_eq

theorem d_verticaltail_area__verticaltail_moment_ratio (verticaltail_volume_coefficient wing_area
    verticaltail_moment_ratio : ℝ)  :
    HasDerivAt (fun t => out_verticaltail_area verticaltail_volume_coefficient wing_area t) (J_verticaltail_area__verticaltail_moment_ratio verticaltail_volume_coefficient wing_area) verticaltail_moment_ratio := by
  simp only [out_verticaltail_area, J_verticaltail_area__verticaltail_moment_ratio, area]
  (apply hasDerivAt_of_eq; on_goal 1 => (repeat' comp_step))
  all_goals try comp_side
  all_goals try simp only [mul_zero, zero_mul, add_zero, zero_add, sub_zero, zero_sub, mul_one, one_mul]
  all_goals try push_cast
  all_goals comp_eq

theorem d_verticaltail_span__verticaltail_volume_coefficient (verticaltail_volume_coefficient
    wing_area verticaltail_moment_ratio verticaltail_aspect_ratio : ℝ) (h0 : 0 <
    verticaltail_volume_coefficient) (h1 : 0 < wing_area) (h2 : 0 < verticaltail_moment_ratio) (h3
    : 0 < verticaltail_aspect_ratio) :
    HasDerivAt (fun t => out_verticaltail_span t wing_area verticaltail_moment_ratio verticaltail_aspect_ratio) (J_verticaltail_span__verticaltail_volume_coefficient verticaltail_volume_coefficient wing_area verticaltail_moment_ratio verticaltail_aspect_ratio) verticaltail_volume_coefficient := by
  simp only [out_verticaltail_span, J_verticaltail_span__verticaltail_volume_coefficient, cse1, span, area, sqrt_eq_rpow]
  (apply hasDerivAt_of_eq; on_goal 1 => (repeat' comp_step))
  all_goals try comp_side
  all_goals try simp (disch := first | assumption | positivity) only [div_mul_eq_div_div, div_half, inv_half]
  all_goals try simp only [mul_zero, zero_mul, add_zero, zero_add, sub_zero, zero_sub, mul_one, one_mul]
  all_goals try push_cast
  all_goals comp_eq

theorem d_verticaltail_span__wing_area (verticaltail_volume_coefficient wing_area
    verticaltail_moment_ratio verticaltail_aspect_ratio : ℝ) (h0 : 0 <
    verticaltail_volume_coefficient) (h1 : 0 < wing_area) (h2 : 0 < verticaltail_moment_ratio) (h3
    : 0 < verticaltail_aspect_ratio) :
    HasDerivAt (fun t => out_verticaltail_span verticaltail_volume_coefficient t verticaltail_moment_ratio verticaltail_aspect_ratio) (J_verticaltail_span__wing_area verticaltail_volume_coefficient wing_area verticaltail_moment_ratio verticaltail_aspect_ratio) wing_area := by
  simp only [out_verticaltail_span, J_verticaltail_span__wing_area, cse1, span, area, sqrt_eq_rpow]
  (apply hasDerivAt_of_eq; on_goal 1 => (repeat' comp_step))
  all_goals try comp_side
  all_goals try simp (disch := first | assumption | positivity) only [div_mul_eq_div_div, div_half, inv_half]
  all_goals try simp only [mul_zero, zero_mul, add_zero, zero_add, sub_zero, zero_sub, mul_one, one_mul]
  all_goals try push_cast
  all_goals comp_eq

theorem d_verticaltail_span__verticaltail_moment_ratio (verticaltail_volume_coefficient wing_area
    verticaltail_moment_ratio verticaltail_aspect_ratio : ℝ) (h0 : 0 <
    verticaltail_volume_coefficient) (h1 : 0 < wing_area) (h2 : 0 < verticaltail_moment_ratio) (h3
    : 0 < verticaltail_aspect_ratio) :
    HasDerivAt (fun t => out_verticaltail_span verticaltail_volume_coefficient wing_area t verticaltail_aspect_ratio) (J_verticaltail_span__verticaltail_moment_ratio verticaltail_volume_coefficient wing_area verticaltail_moment_ratio verticaltail_aspect_ratio) verticaltail_moment_ratio := by
  simp only [out_verticaltail_span, J_verticaltail_span__verticaltail_moment_ratio, cse1, span, area, sqrt_eq_rpow]
  (apply hasDerivAt_of_eq; on_goal 1 => (repeat' comp_step))
  all_goals try comp_side
  all_goals try simp (disch := first | assumption | positivity) only [div_mul_eq_div_div, div_half, inv_half]
  all_goals try simp only [mul_zero, zero_mul, add_zero, zero_add, sub_zero, zero_sub, mul_one, one_mul]
  all_goals try push_cast
  all_goals comp_eq

theorem d_verticaltail_span__verticaltail_aspect_ratio (verticaltail_volume_coefficient wing_area
    verticaltail_moment_ratio verticaltail_aspect_ratio : ℝ) (h0 : 0 <
    verticaltail_volume_coefficient) (h1 : 0 < wing_area) (h2 : 0 < verticaltail_moment_ratio) (h3
    : 0 < verticaltail_aspect_ratio) :
    HasDerivAt (fun t => out_verticaltail_span verticaltail_volume_coefficient wing_area verticaltail_moment_ratio t) (J_verticaltail_span__verticaltail_aspect_ratio verticaltail_volume_coefficient wing_area verticaltail_moment_ratio verticaltail_aspect_ratio) verticaltail_aspect_ratio := by
  simp only [out_verticaltail_span, J_verticaltail_span__verticaltail_aspect_ratio, cse1, span, area, sqrt_eq_rpow]
  (apply hasDerivAt_of_eq; on_goal 1 => (repeat' comp_step))
  all_goals try comp_side
  all_goals try simp (disch := first | assumption | positivity) only [div_mul_eq_div_div, div_half, inv_half]
  all_goals try simp only [mul_zero, zero_mul, add_zero, zero_add, sub_zero, zero_sub, mul_one, one_mul]
  all_goals try push_cast
  all_goals comp_eq

theorem d_verticaltail_root_chord__verticaltail_volume_coefficient
    (verticaltail_volume_coefficient wing_area verticaltail_moment_ratio verticaltail_aspect_ratio
    verticaltail_taper_ratio : ℝ) (h0 : 0 < verticaltail_volume_coefficient) (h1 : 0 < wing_area)
    (h2 : 0 < verticaltail_moment_ratio) (h3 : 0 < verticaltail_aspect_ratio) (h4 : 0 <
    verticaltail_taper_ratio) :
    HasDerivAt (fun t => out_verticaltail_root_chord t wing_area verticaltail_moment_ratio verticaltail_aspect_ratio verticaltail_taper_ratio) (J_verticaltail_root_chord__verticaltail_volume_coefficient verticaltail_volume_coefficient wing_area verticaltail_moment_ratio verticaltail_aspect_ratio verticaltail_taper_ratio) verticaltail_volume_coefficient := by
  simp only [out_verticaltail_root_chord, J_verticaltail_root_chord__verticaltail_volume_coefficient, cse2, cse1, rchord, span, area, sqrt_eq_rpow]
  (apply hasDerivAt_of_eq; on_goal 1 => (repeat' comp_step))
  all_goals try comp_side
  all_goals try simp (disch := first | assumption | positivity) only [div_mul_eq_div_div, div_half, inv_half]
  all_goals try simp only [mul_zero, zero_mul, add_zero, zero_add, sub_zero, zero_sub, mul_one, one_mul]
  all_goals try push_cast
  all_goals comp_eq

theorem d_verticaltail_root_chord__wing_area (verticaltail_volume_coefficient wing_area
    verticaltail_moment_ratio verticaltail_aspect_ratio verticaltail_taper_ratio : ℝ) (h0 : 0 <
    verticaltail_volume_coefficient) (h1 : 0 < wing_area) (h2 : 0 < verticaltail_moment_ratio) (h3
    : 0 < verticaltail_aspect_ratio) (h4 : 0 < verticaltail_taper_ratio) :
    HasDerivAt (fun t => out_verticaltail_root_chord verticaltail_volume_coefficient t verticaltail_moment_ratio verticaltail_aspect_ratio verticaltail_taper_ratio) (J_verticaltail_root_chord__wing_area verticaltail_volume_coefficient wing_area verticaltail_moment_ratio verticaltail_aspect_ratio verticaltail_taper_ratio) wing_area := by
  simp only [out_verticaltail_root_chord, J_verticaltail_root_chord__wing_area, cse2, cse1, rchord, span, area, sqrt_eq_rpow]
  (apply hasDerivAt_of_eq; on_goal 1 => (repeat' comp_step))
  all_goals try comp_side
  all_goals try simp (disch := first | assumption | positivity) only [div_mul_eq_div_div, div_half, inv_half]
  all_goals try simp only [mul_zero, zero_mul, add_zero, zero_add, sub_zero, zero_sub, mul_one, one_mul]
  all_goals try push_cast
  all_goals comp_eq

theorem d_verticaltail_root_chord__verticaltail_moment_ratio (verticaltail_volume_coefficient
    wing_area verticaltail_moment_ratio verticaltail_aspect_ratio verticaltail_taper_ratio : ℝ)
    (h0 : 0 < verticaltail_volume_coefficient) (h1 : 0 < wing_area) (h2 : 0 <
    verticaltail_moment_ratio) (h3 : 0 < verticaltail_aspect_ratio) (h4 : 0 <
    verticaltail_taper_ratio) :
    HasDerivAt (fun t => out_verticaltail_root_chord verticaltail_volume_coefficient wing_area t verticaltail_aspect_ratio verticaltail_taper_ratio) (J_verticaltail_root_chord__verticaltail_moment_ratio verticaltail_volume_coefficient wing_area verticaltail_moment_ratio verticaltail_aspect_ratio verticaltail_taper_ratio) verticaltail_moment_ratio := by
  simp only [out_verticaltail_root_chord, J_verticaltail_root_chord__verticaltail_moment_ratio, cse2, cse1, rchord, span, area, sqrt_eq_rpow]
  (apply hasDerivAt_of_eq; on_goal 1 => (repeat' comp_step))
  all_goals try comp_side
  all_goals try simp (disch := first | assumption | positivity) only [div_mul_eq_div_div, div_half, inv_half]
  all_goals try simp only [mul_zero, zero_mul, add_zero, zero_add, sub_zero, zero_sub, mul_one, one_mul]
  all_goals try push_cast
  all_goals comp_eq

theorem d_verticaltail_root_chord__verticaltail_aspect_ratio (verticaltail_volume_coefficient
    wing_area verticaltail_moment_ratio verticaltail_aspect_ratio verticaltail_taper_ratio : ℝ)
    (h0 : 0 < verticaltail_volume_coefficient) (h1 : 0 < wing_area) (h2 : 0 <
    verticaltail_moment_ratio) (h3 : 0 < verticaltail_aspect_ratio) (h4 : 0 <
    verticaltail_taper_ratio) :
    HasDerivAt (fun t => out_verticaltail_root_chord verticaltail_volume_coefficient wing_area verticaltail_moment_ratio t verticaltail_taper_ratio) (J_verticaltail_root_chord__verticaltail_aspect_ratio verticaltail_volume_coefficient wing_area verticaltail_moment_ratio verticaltail_aspect_ratio verticaltail_taper_ratio) verticaltail_aspect_ratio := by
  simp only [out_verticaltail_root_chord, J_verticaltail_root_chord__verticaltail_aspect_ratio, cse2, cse1, rchord, span, area, sqrt_eq_rpow]
  (apply hasDerivAt_of_eq; on_goal 1 => (repeat' comp_step))
  all_goals try comp_side
  all_goals try simp (disch := first | assumption | positivity) only [div_mul_eq_div_div, div_half, inv_half]
  all_goals try simp only [mul_zero, zero_mul, add_zero, zero_add, sub_zero, zero_sub, mul_one, one_mul]
  all_goals try push_cast
  all_goals comp_eq

theorem d_verticaltail_root_chord__verticaltail_taper_ratio (verticaltail_volume_coefficient
    wing_area verticaltail_moment_ratio verticaltail_aspect_ratio verticaltail_taper_ratio : ℝ)
    (h0 : 0 < verticaltail_volume_coefficient) (h1 : 0 < wing_area) (h2 : 0 <
    verticaltail_moment_ratio) (h3 : 0 < verticaltail_aspect_ratio) (h4 : 0 <
    verticaltail_taper_ratio) :
    HasDerivAt (fun t => out_verticaltail_root_chord verticaltail_volume_coefficient wing_area verticaltail_moment_ratio verticaltail_aspect_ratio t) (J_verticaltail_root_chord__verticaltail_taper_ratio verticaltail_volume_coefficient wing_area verticaltail_moment_ratio verticaltail_aspect_ratio verticaltail_taper_ratio) verticaltail_taper_ratio := by
  simp only [out_verticaltail_root_chord, J_verticaltail_root_chord__verticaltail_taper_ratio, cse2, cse1, rchord, span, area, sqrt_eq_rpow]
  (apply hasDerivAt_of_eq; on_goal 1 => (repeat' comp_step))
  all_goals try comp_side
  all_goals try simp (disch := first | assumption | positivity) only [div_mul_eq_div_div, div_half, inv_half]
  all_goals try simp only [mul_zero, zero_mul, add_zero, zero_add, sub_zero, zero_sub, mul_one, one_mul]
  all_goals try push_cast
  all_goals comp_eq

theorem d_verticaltail_average_chord__verticaltail_volume_coefficient
    (verticaltail_volume_coefficient wing_area verticaltail_moment_ratio verticaltail_aspect_ratio
    verticaltail_taper_ratio : ℝ) (h0 : 0 < verticaltail_volume_coefficient) (h1 : 0 < wing_area)
    (h2 : 0 < verticaltail_moment_ratio) (h3 : 0 < verticaltail_aspect_ratio) (h4 : 0 <
    verticaltail_taper_ratio) :
    HasDerivAt (fun t => out_verticaltail_average_chord t wing_area verticaltail_moment_ratio verticaltail_aspect_ratio verticaltail_taper_ratio) (J_verticaltail_average_chord__verticaltail_volume_coefficient verticaltail_volume_coefficient wing_area verticaltail_moment_ratio verticaltail_aspect_ratio verticaltail_taper_ratio) verticaltail_volume_coefficient := by
  simp only [out_verticaltail_average_chord, J_verticaltail_average_chord__verticaltail_volume_coefficient, cse2, cse1, cse3, chord, rchord, span, area, sqrt_eq_rpow]
  (apply hasDerivAt_of_eq; on_goal 1 => (repeat' comp_step))
  all_goals try comp_side
  all_goals try simp (disch := first | assumption | positivity) only [div_mul_eq_div_div, div_half, inv_half]
  all_goals try simp only [mul_zero, zero_mul, add_zero, zero_add, sub_zero, zero_sub, mul_one, one_mul]
  all_goals try push_cast
  all_goals comp_eq

theorem d_verticaltail_average_chord__wing_area (verticaltail_volume_coefficient wing_area
    verticaltail_moment_ratio verticaltail_aspect_ratio verticaltail_taper_ratio : ℝ) (h0 : 0 <
    verticaltail_volume_coefficient) (h1 : 0 < wing_area) (h2 : 0 < verticaltail_moment_ratio) (h3
    : 0 < verticaltail_aspect_ratio) (h4 : 0 < verticaltail_taper_ratio) :
    HasDerivAt (fun t => out_verticaltail_average_chord verticaltail_volume_coefficient t verticaltail_moment_ratio verticaltail_aspect_ratio verticaltail_taper_ratio) (J_verticaltail_average_chord__wing_area verticaltail_volume_coefficient wing_area verticaltail_moment_ratio verticaltail_aspect_ratio verticaltail_taper_ratio) wing_area := by
  simp only [out_verticaltail_average_chord, J_verticaltail_average_chord__wing_area, cse2, cse1, cse3, chord, rchord, span, area, sqrt_eq_rpow]
  (apply hasDerivAt_of_eq; on_goal 1 => (repeat' comp_step))
  all_goals try comp_side
  all_goals try simp (disch := first | assumption | positivity) only [div_mul_eq_div_div, div_half, inv_half]
  all_goals try simp only [mul_zero, zero_mul, add_zero, zero_add, sub_zero, zero_sub, mul_one, one_mul]
  all_goals try push_cast
  all_goals comp_eq

theorem d_verticaltail_average_chord__verticaltail_moment_ratio (verticaltail_volume_coefficient
    wing_area verticaltail_moment_ratio verticaltail_aspect_ratio verticaltail_taper_ratio : ℝ)
    (h0 : 0 < verticaltail_volume_coefficient) (h1 : 0 < wing_area) (h2 : 0 <
    verticaltail_moment_ratio) (h3 : 0 < verticaltail_aspect_ratio) (h4 : 0 <
    verticaltail_taper_ratio) :
    HasDerivAt (fun t => out_verticaltail_average_chord verticaltail_volume_coefficient wing_area t verticaltail_aspect_ratio verticaltail_taper_ratio) (J_verticaltail_average_chord__verticaltail_moment_ratio verticaltail_volume_coefficient wing_area verticaltail_moment_ratio verticaltail_aspect_ratio verticaltail_taper_ratio) verticaltail_moment_ratio := by
  simp only [out_verticaltail_average_chord, J_verticaltail_average_chord__verticaltail_moment_ratio, cse2, cse1, cse3, chord, rchord, span, area, sqrt_eq_rpow]
  (apply hasDerivAt_of_eq; on_goal 1 => (repeat' comp_step))
  all_goals try comp_side
  all_goals try simp (disch := first | assumption | positivity) only [div_mul_eq_div_div, div_half, inv_half]
  all_goals try simp only [mul_zero, zero_mul, add_zero, zero_add, sub_zero, zero_sub, mul_one, one_mul]
  all_goals try push_cast
  all_goals comp_eq

theorem d_verticaltail_average_chord__verticaltail_aspect_ratio (verticaltail_volume_coefficient
    wing_area verticaltail_moment_ratio verticaltail_aspect_ratio verticaltail_taper_ratio : ℝ)
    (h0 : 0 < verticaltail_volume_coefficient) (h1 : 0 < wing_area) (h2 : 0 <
    verticaltail_moment_ratio) (h3 : 0 < verticaltail_aspect_ratio) (h4 : 0 <
    verticaltail_taper_ratio) :
    HasDerivAt (fun t => out_verticaltail_average_chord verticaltail_volume_coefficient wing_area verticaltail_moment_ratio t verticaltail_taper_ratio) (J_verticaltail_average_chord__verticaltail_aspect_ratio verticaltail_volume_coefficient wing_area verticaltail_moment_ratio verticaltail_aspect_ratio verticaltail_taper_ratio) verticaltail_aspect_ratio := by
  simp only [out_verticaltail_average_chord, J_verticaltail_average_chord__verticaltail_aspect_ratio, cse2, cse1, cse3, chord, rchord, span, area, sqrt_eq_rpow]
  (apply hasDerivAt_of_eq; on_goal 1 => (repeat' comp_step))
  all_goals try comp_side
  all_goals try simp (disch := first | assumption | positivity) only [div_mul_eq_div_div, div_half, inv_half]
  all_goals try simp only [mul_zero, zero_mul, add_zero, zero_add, sub_zero, zero_sub, mul_one, one_mul]
  all_goals try push_cast
  all_goals comp_eq

theorem d_verticaltail_average_chord__verticaltail_taper_ratio (verticaltail_volume_coefficient
    wing_area verticaltail_moment_ratio verticaltail_aspect_ratio verticaltail_taper_ratio : ℝ)
    (h0 : 0 < verticaltail_volume_coefficient) (h1 : 0 < wing_area) (h2 : 0 <
    verticaltail_moment_ratio) (h3 : 0 < verticaltail_aspect_ratio) (h4 : 0 <
    verticaltail_taper_ratio) :
    HasDerivAt (fun t => out_verticaltail_average_chord verticaltail_volume_coefficient wing_area verticaltail_moment_ratio verticaltail_aspect_ratio t) (J_verticaltail_average_chord__verticaltail_taper_ratio verticaltail_volume_coefficient wing_area verticaltail_moment_ratio verticaltail_aspect_ratio verticaltail_taper_ratio) verticaltail_taper_ratio := by
  simp only [out_verticaltail_average_chord, J_verticaltail_average_chord__verticaltail_taper_ratio, cse1, chord, rchord, span, area, sqrt_eq_rpow]
  (apply hasDerivAt_of_eq; on_goal 1 => (repeat' comp_step))
  all_goals try comp_side
  all_goals try simp (disch := first | assumption | positivity) only [div_mul_eq_div_div, div_half, inv_half]
  all_goals try simp only [mul_zero, zero_mul, add_zero, zero_add, sub_zero, zero_sub, mul_one, one_mul]
  all_goals try push_cast
  all_goals comp_eq

theorem d_verticaltail_moment_arm__verticaltail_moment_ratio (verticaltail_moment_ratio wing_span
    : ℝ) (h0 : 0 < verticaltail_moment_ratio) :
    HasDerivAt (fun t => out_verticaltail_moment_arm t wing_span) (J_verticaltail_moment_arm__verticaltail_moment_ratio verticaltail_moment_ratio wing_span) verticaltail_moment_ratio := by
  simp only [out_verticaltail_moment_arm, J_verticaltail_moment_arm__verticaltail_moment_ratio, arm]
  (apply hasDerivAt_of_eq; on_goal 1 => (repeat' comp_step))
  all_goals try comp_side
  all_goals try simp only [mul_zero, zero_mul, add_zero, zero_add, sub_zero, zero_sub, mul_one, one_mul]
  all_goals try push_cast
  all_goals comp_eq

theorem d_verticaltail_moment_arm__wing_span (verticaltail_moment_ratio wing_span : ℝ) (h0 : 0 <
    verticaltail_moment_ratio) :
    HasDerivAt (fun t => out_verticaltail_moment_arm verticaltail_moment_ratio t) (J_verticaltail_moment_arm__wing_span verticaltail_moment_ratio) wing_span := by
  simp only [out_verticaltail_moment_arm, J_verticaltail_moment_arm__wing_span, arm]
  (apply hasDerivAt_of_eq; on_goal 1 => (repeat' comp_step))
  all_goals try comp_side
  all_goals try simp only [mul_zero, zero_mul, add_zero, zero_add, sub_zero, zero_sub, mul_one, one_mul]
  all_goals try push_cast
  all_goals comp_eq

/-- Every partial derivative set by `TailSize` is the derivative of its output. -/
theorem partials (verticaltail_volume_coefficient wing_area verticaltail_moment_ratio wing_span
    verticaltail_aspect_ratio verticaltail_taper_ratio : ℝ) (h0 : 0 <
    verticaltail_volume_coefficient) (h1 : 0 < wing_area) (h2 : 0 < verticaltail_moment_ratio) (h3
    : 0 < verticaltail_aspect_ratio) (h4 : 0 < verticaltail_taper_ratio) :
    HasDerivAt (fun t => out_verticaltail_area t wing_area verticaltail_moment_ratio)
      (J_verticaltail_area__verticaltail_volume_coefficient wing_area verticaltail_moment_ratio)
      verticaltail_volume_coefficient ∧
    HasDerivAt (fun t => out_verticaltail_area verticaltail_volume_coefficient t
      verticaltail_moment_ratio) (J_verticaltail_area__wing_area verticaltail_volume_coefficient
      verticaltail_moment_ratio) wing_area ∧
    HasDerivAt (fun t => out_verticaltail_area verticaltail_volume_coefficient wing_area t)
      (J_verticaltail_area__verticaltail_moment_ratio verticaltail_volume_coefficient wing_area)
      verticaltail_moment_ratio ∧
    HasDerivAt (fun t => out_verticaltail_span t wing_area verticaltail_moment_ratio
      verticaltail_aspect_ratio) (J_verticaltail_span__verticaltail_volume_coefficient
      verticaltail_volume_coefficient wing_area verticaltail_moment_ratio
      verticaltail_aspect_ratio) verticaltail_volume_coefficient ∧
    HasDerivAt (fun t => out_verticaltail_span verticaltail_volume_coefficient t
      verticaltail_moment_ratio verticaltail_aspect_ratio) (J_verticaltail_span__wing_area
      verticaltail_volume_coefficient wing_area verticaltail_moment_ratio
      verticaltail_aspect_ratio) wing_area ∧
    HasDerivAt (fun t => out_verticaltail_span verticaltail_volume_coefficient wing_area t
      verticaltail_aspect_ratio) (J_verticaltail_span__verticaltail_moment_ratio
      verticaltail_volume_coefficient wing_area verticaltail_moment_ratio
      verticaltail_aspect_ratio) verticaltail_moment_ratio ∧
    HasDerivAt (fun t => out_verticaltail_span verticaltail_volume_coefficient wing_area
      verticaltail_moment_ratio t) (J_verticaltail_span__verticaltail_aspect_ratio
      verticaltail_volume_coefficient wing_area verticaltail_moment_ratio
      verticaltail_aspect_ratio) verticaltail_aspect_ratio ∧
    HasDerivAt (fun t => out_verticaltail_root_chord t wing_area verticaltail_moment_ratio
      verticaltail_aspect_ratio verticaltail_taper_ratio)
      (J_verticaltail_root_chord__verticaltail_volume_coefficient verticaltail_volume_coefficient
      wing_area verticaltail_moment_ratio verticaltail_aspect_ratio verticaltail_taper_ratio)
      verticaltail_volume_coefficient ∧
    HasDerivAt (fun t => out_verticaltail_root_chord verticaltail_volume_coefficient t
      verticaltail_moment_ratio verticaltail_aspect_ratio verticaltail_taper_ratio)
      (J_verticaltail_root_chord__wing_area verticaltail_volume_coefficient wing_area
      verticaltail_moment_ratio verticaltail_aspect_ratio verticaltail_taper_ratio) wing_area ∧
    HasDerivAt (fun t => out_verticaltail_root_chord verticaltail_volume_coefficient wing_area t
      verticaltail_aspect_ratio verticaltail_taper_ratio)
      (J_verticaltail_root_chord__verticaltail_moment_ratio verticaltail_volume_coefficient
      wing_area verticaltail_moment_ratio verticaltail_aspect_ratio verticaltail_taper_ratio)
      verticaltail_moment_ratio ∧
    HasDerivAt (fun t => out_verticaltail_root_chord verticaltail_volume_coefficient wing_area
      verticaltail_moment_ratio t verticaltail_taper_ratio)
      (J_verticaltail_root_chord__verticaltail_aspect_ratio verticaltail_volume_coefficient
      wing_area verticaltail_moment_ratio verticaltail_aspect_ratio verticaltail_taper_ratio)
      verticaltail_aspect_ratio ∧
    HasDerivAt (fun t => out_verticaltail_root_chord verticaltail_volume_coefficient wing_area
      verticaltail_moment_ratio verticaltail_aspect_ratio t)
      (J_verticaltail_root_chord__verticaltail_taper_ratio verticaltail_volume_coefficient
      wing_area verticaltail_moment_ratio verticaltail_aspect_ratio verticaltail_taper_ratio)
      verticaltail_taper_ratio ∧
    HasDerivAt (fun t => out_verticaltail_average_chord t wing_area verticaltail_moment_ratio
      verticaltail_aspect_ratio verticaltail_taper_ratio)
      (J_verticaltail_average_chord__verticaltail_volume_coefficient
      verticaltail_volume_coefficient wing_area verticaltail_moment_ratio
      verticaltail_aspect_ratio verticaltail_taper_ratio) verticaltail_volume_coefficient ∧
    HasDerivAt (fun t => out_verticaltail_average_chord verticaltail_volume_coefficient t
      verticaltail_moment_ratio verticaltail_aspect_ratio verticaltail_taper_ratio)
      (J_verticaltail_average_chord__wing_area verticaltail_volume_coefficient wing_area
      verticaltail_moment_ratio verticaltail_aspect_ratio verticaltail_taper_ratio) wing_area ∧
    HasDerivAt (fun t => out_verticaltail_average_chord verticaltail_volume_coefficient wing_area t
      verticaltail_aspect_ratio verticaltail_taper_ratio)
      (J_verticaltail_average_chord__verticaltail_moment_ratio verticaltail_volume_coefficient
      wing_area verticaltail_moment_ratio verticaltail_aspect_ratio verticaltail_taper_ratio)
      verticaltail_moment_ratio ∧
    HasDerivAt (fun t => out_verticaltail_average_chord verticaltail_volume_coefficient wing_area
      verticaltail_moment_ratio t verticaltail_taper_ratio)
      (J_verticaltail_average_chord__verticaltail_aspect_ratio verticaltail_volume_coefficient
      wing_area verticaltail_moment_ratio verticaltail_aspect_ratio verticaltail_taper_ratio)
      verticaltail_aspect_ratio ∧
    HasDerivAt (fun t => out_verticaltail_average_chord verticaltail_volume_coefficient wing_area
      verticaltail_moment_ratio verticaltail_aspect_ratio t)
      (J_verticaltail_average_chord__verticaltail_taper_ratio verticaltail_volume_coefficient
      wing_area verticaltail_moment_ratio verticaltail_aspect_ratio verticaltail_taper_ratio)
      verticaltail_taper_ratio ∧
    HasDerivAt (fun t => out_verticaltail_moment_arm t wing_span)
      (J_verticaltail_moment_arm__verticaltail_moment_ratio verticaltail_moment_ratio wing_span)
      verticaltail_moment_ratio ∧
    HasDerivAt (fun t => out_verticaltail_moment_arm verticaltail_moment_ratio t)
      (J_verticaltail_moment_arm__wing_span verticaltail_moment_ratio) wing_span :=
  ⟨d_verticaltail_area__verticaltail_volume_coefficient _ _ _, d_verticaltail_area__wing_area _ _
    _, d_verticaltail_area__verticaltail_moment_ratio _ _ _,
    d_verticaltail_span__verticaltail_volume_coefficient _ _ _ _ h0 h1 h2 h3,
    d_verticaltail_span__wing_area _ _ _ _ h0 h1 h2 h3,
    d_verticaltail_span__verticaltail_moment_ratio _ _ _ _ h0 h1 h2 h3,
    d_verticaltail_span__verticaltail_aspect_ratio _ _ _ _ h0 h1 h2 h3,
    d_verticaltail_root_chord__verticaltail_volume_coefficient _ _ _ _ _ h0 h1 h2 h3 h4,
    d_verticaltail_root_chord__wing_area _ _ _ _ _ h0 h1 h2 h3 h4,
    d_verticaltail_root_chord__verticaltail_moment_ratio _ _ _ _ _ h0 h1 h2 h3 h4,
    d_verticaltail_root_chord__verticaltail_aspect_ratio _ _ _ _ _ h0 h1 h2 h3 h4,
    d_verticaltail_root_chord__verticaltail_taper_ratio _ _ _ _ _ h0 h1 h2 h3 h4,
    d_verticaltail_average_chord__verticaltail_volume_coefficient _ _ _ _ _ h0 h1 h2 h3 h4,
    d_verticaltail_average_chord__wing_area _ _ _ _ _ h0 h1 h2 h3 h4,
    d_verticaltail_average_chord__verticaltail_moment_ratio _ _ _ _ _ h0 h1 h2 h3 h4,
    d_verticaltail_average_chord__verticaltail_aspect_ratio _ _ _ _ _ h0 h1 h2 h3 h4,
    d_verticaltail_average_chord__verticaltail_taper_ratio _ _ _ _ _ h0 h1 h2 h3 h4,
    d_verticaltail_moment_arm__verticaltail_moment_ratio _ _ h2,
    d_verticaltail_moment_arm__wing_span _ _ h2⟩

example : ∃ verticaltail_volume_coefficient wing_area verticaltail_moment_ratio wing_span
      verticaltail_aspect_ratio verticaltail_taper_ratio : ℝ,
      0 < verticaltail_volume_coefficient ∧
      0 < wing_area ∧
      0 < verticaltail_moment_ratio ∧
      0 < verticaltail_aspect_ratio ∧
      0 < verticaltail_taper_ratio :=
  ⟨1, 1, 1, 0, 1, 1, by comp_example, by comp_example, by comp_example, by comp_example, by
    comp_example⟩

end Verif.Comp.GeometryGaspBasedEmpennage.TailSize_otherorientation

namespace Verif.Comp.GeometryGaspBasedEmpennage.TailVolCoef_vertical
open Real

/-- aviary/subsystems/geometry/gasp_based/empennage.py:64 -/
noncomputable def ch1 (horizontaltail_vertical_tail_mount_location : ℝ) : ℝ :=
  (7 / 100) - ((217 / 5000) * horizontaltail_vertical_tail_mount_location)

/-- Output `verticaltail_volume_coefficient` of `TailVolCoef.compute`, aviary/subsystems/geometry/gasp_based/empennage.py:65 -/
noncomputable def out_verticaltail_volume_coefficient (horizontaltail_vertical_tail_mount_location fuselage_length fuselage_avg_diameter wing_area wing_span : ℝ) : ℝ :=
  ((((42 / 125) * fuselage_length) * (fuselage_avg_diameter ^ 2)) / (wing_area * wing_span)) +
    (ch1 horizontaltail_vertical_tail_mount_location)

/-- Partial of `verticaltail_volume_coefficient` with respect to `horizontaltail_vertical_tail_mount_location` as set by `TailVolCoef`, aviary/subsystems/geometry/gasp_based/empennage.py:73 -/
noncomputable def J_verticaltail_volume_coefficient__horizontaltail_vertical_tail_mount_location : ℝ :=
  -(217 / 5000)

/-- Partial of `verticaltail_volume_coefficient` with respect to `fuselage_length` as set by `TailVolCoef`, aviary/subsystems/geometry/gasp_based/empennage.py:74 -/
noncomputable def J_verticaltail_volume_coefficient__fuselage_length (fuselage_avg_diameter wing_area wing_span : ℝ) : ℝ :=
  ((42 / 125) * (fuselage_avg_diameter ^ 2)) / (wing_area * wing_span)

/-- Partial of `verticaltail_volume_coefficient` with respect to `fuselage_avg_diameter` as set by `TailVolCoef`, aviary/subsystems/geometry/gasp_based/empennage.py:75 -/
noncomputable def J_verticaltail_volume_coefficient__fuselage_avg_diameter (fuselage_length fuselage_avg_diameter wing_area wing_span : ℝ) : ℝ :=
  (((84 / 125) * fuselage_length) * fuselage_avg_diameter) / (wing_area * wing_span)

/-- Partial of `verticaltail_volume_coefficient` with respect to `wing_area` as set by `TailVolCoef`, aviary/subsystems/geometry/gasp_based/empennage.py:78 -/
noncomputable def J_verticaltail_volume_coefficient__wing_area (fuselage_length fuselage_avg_diameter wing_area wing_span : ℝ) : ℝ :=
  (((-(42 / 125)) * fuselage_length) * (fuselage_avg_diameter ^ 2)) / ((wing_area ^ 2) *
    wing_span)

/-- Partial of `verticaltail_volume_coefficient` with respect to `wing_span` as set by `TailVolCoef`, aviary/subsystems/geometry/gasp_based/empennage.py:79 -/
noncomputable def J_verticaltail_volume_coefficient__wing_span (fuselage_length fuselage_avg_diameter wing_area wing_span : ℝ) : ℝ :=
  (((-(42 / 125)) * fuselage_length) * (fuselage_avg_diameter ^ 2)) / (wing_area * (wing_span ^
    2))

theorem d_verticaltail_volume_coefficient__horizontaltail_vertical_tail_mount_location
    (horizontaltail_vertical_tail_mount_location fuselage_length fuselage_avg_diameter wing_area
    wing_span : ℝ) (h0 : 0 < wing_area) (h1 : 0 < wing_span) :
    HasDerivAt (fun t => out_verticaltail_volume_coefficient t fuselage_length fuselage_avg_diameter wing_area wing_span) (J_verticaltail_volume_coefficient__horizontaltail_vertical_tail_mount_location) horizontaltail_vertical_tail_mount_location := by
  simp only [out_verticaltail_volume_coefficient, J_verticaltail_volume_coefficient__horizontaltail_vertical_tail_mount_location, ch1]
  (apply hasDerivAt_of_eq; on_goal 1 => (repeat' comp_step))
  all_goals try comp_side
  all_goals try simp only [mul_zero, zero_mul, add_zero, zero_add, sub_zero, zero_sub, mul_one, one_mul]
  all_goals try push_cast
  all_goals comp_eq

theorem d_verticaltail_volume_coefficient__fuselage_length
    (horizontaltail_vertical_tail_mount_location fuselage_length fuselage_avg_diameter wing_area
    wing_span : ℝ) (h0 : 0 < wing_area) (h1 : 0 < wing_span) :
    HasDerivAt (fun t => out_verticaltail_volume_coefficient horizontaltail_vertical_tail_mount_location t fuselage_avg_diameter wing_area wing_span) (J_verticaltail_volume_coefficient__fuselage_length fuselage_avg_diameter wing_area wing_span) fuselage_length := by
  simp only [out_verticaltail_volume_coefficient, J_verticaltail_volume_coefficient__fuselage_length, ch1]
  (apply hasDerivAt_of_eq; on_goal 1 => (repeat' comp_step))
  all_goals try comp_side
  all_goals try simp only [mul_zero, zero_mul, add_zero, zero_add, sub_zero, zero_sub, mul_one, one_mul]
  all_goals try push_cast
  all_goals comp_eq

theorem d_verticaltail_volume_coefficient__fuselage_avg_diameter
    (horizontaltail_vertical_tail_mount_location fuselage_length fuselage_avg_diameter wing_area
    wing_span : ℝ) (h0 : 0 < wing_area) (h1 : 0 < wing_span) :
    HasDerivAt (fun t => out_verticaltail_volume_coefficient horizontaltail_vertical_tail_mount_location fuselage_length t wing_area wing_span) (J_verticaltail_volume_coefficient__fuselage_avg_diameter fuselage_length fuselage_avg_diameter wing_area wing_span) fuselage_avg_diameter := by
  simp only [out_verticaltail_volume_coefficient, J_verticaltail_volume_coefficient__fuselage_avg_diameter, ch1]
  (apply hasDerivAt_of_eq; on_goal 1 => (repeat' comp_step))
  all_goals try comp_side
  all_goals try simp only [mul_zero, zero_mul, add_zero, zero_add, sub_zero, zero_sub, mul_one, one_mul]
  all_goals try push_cast
  all_goals comp_eq

theorem d_verticaltail_volume_coefficient__wing_area (horizontaltail_vertical_tail_mount_location
    fuselage_length fuselage_avg_diameter wing_area wing_span : ℝ) (h0 : 0 < wing_area) (h1 : 0 <
    wing_span) :
    HasDerivAt (fun t => out_verticaltail_volume_coefficient horizontaltail_vertical_tail_mount_location fuselage_length fuselage_avg_diameter t wing_span) (J_verticaltail_volume_coefficient__wing_area fuselage_length fuselage_avg_diameter wing_area wing_span) wing_area := by
  simp only [out_verticaltail_volume_coefficient, J_verticaltail_volume_coefficient__wing_area, ch1]
  (apply hasDerivAt_of_eq; on_goal 1 => (repeat' comp_step))
  all_goals try comp_side
  all_goals try simp only [mul_zero, zero_mul, add_zero, zero_add, sub_zero, zero_sub, mul_one, one_mul]
  all_goals try push_cast
  all_goals comp_eq

theorem d_verticaltail_volume_coefficient__wing_span (horizontaltail_vertical_tail_mount_location
    fuselage_length fuselage_avg_diameter wing_area wing_span : ℝ) (h0 : 0 < wing_area) (h1 : 0 <
    wing_span) :
    HasDerivAt (fun t => out_verticaltail_volume_coefficient horizontaltail_vertical_tail_mount_location fuselage_length fuselage_avg_diameter wing_area t) (J_verticaltail_volume_coefficient__wing_span fuselage_length fuselage_avg_diameter wing_area wing_span) wing_span := by
  simp only [out_verticaltail_volume_coefficient, J_verticaltail_volume_coefficient__wing_span, ch1]
  (apply hasDerivAt_of_eq; on_goal 1 => (repeat' comp_step))
  all_goals try comp_side
  all_goals try simp only [mul_zero, zero_mul, add_zero, zero_add, sub_zero, zero_sub, mul_one, one_mul]
  all_goals try push_cast
  all_goals comp_eq

/-- Every partial derivative set by `TailVolCoef` is the derivative of its output. -/
theorem partials (horizontaltail_vertical_tail_mount_location fuselage_length
    fuselage_avg_diameter wing_area wing_span : ℝ) (h0 : 0 < wing_area) (h1 : 0 < wing_span) :
    HasDerivAt (fun t => out_verticaltail_volume_coefficient t fuselage_length fuselage_avg_diameter
      wing_area wing_span)
      (J_verticaltail_volume_coefficient__horizontaltail_vertical_tail_mount_location)
      horizontaltail_vertical_tail_mount_location ∧
    HasDerivAt (fun t => out_verticaltail_volume_coefficient
      horizontaltail_vertical_tail_mount_location t fuselage_avg_diameter wing_area wing_span)
      (J_verticaltail_volume_coefficient__fuselage_length fuselage_avg_diameter wing_area
      wing_span) fuselage_length ∧
    HasDerivAt (fun t => out_verticaltail_volume_coefficient
      horizontaltail_vertical_tail_mount_location fuselage_length t wing_area wing_span)
      (J_verticaltail_volume_coefficient__fuselage_avg_diameter fuselage_length
      fuselage_avg_diameter wing_area wing_span) fuselage_avg_diameter ∧
    HasDerivAt (fun t => out_verticaltail_volume_coefficient
      horizontaltail_vertical_tail_mount_location fuselage_length fuselage_avg_diameter t
      wing_span) (J_verticaltail_volume_coefficient__wing_area fuselage_length
      fuselage_avg_diameter wing_area wing_span) wing_area ∧
    HasDerivAt (fun t => out_verticaltail_volume_coefficient
      horizontaltail_vertical_tail_mount_location fuselage_length fuselage_avg_diameter wing_area
      t) (J_verticaltail_volume_coefficient__wing_span fuselage_length fuselage_avg_diameter
      wing_area wing_span) wing_span :=
  ⟨d_verticaltail_volume_coefficient__horizontaltail_vertical_tail_mount_location _ _ _ _ _ h0 h1,
    d_verticaltail_volume_coefficient__fuselage_length _ _ _ _ _ h0 h1,
    d_verticaltail_volume_coefficient__fuselage_avg_diameter _ _ _ _ _ h0 h1,
    d_verticaltail_volume_coefficient__wing_area _ _ _ _ _ h0 h1,
    d_verticaltail_volume_coefficient__wing_span _ _ _ _ _ h0 h1⟩

example : ∃ horizontaltail_vertical_tail_mount_location fuselage_length fuselage_avg_diameter
      wing_area wing_span : ℝ,
      0 < wing_area ∧
      0 < wing_span :=
  ⟨0, 0, 0, 1, 1, by comp_example, by comp_example⟩

end Verif.Comp.GeometryGaspBasedEmpennage.TailVolCoef_vertical

