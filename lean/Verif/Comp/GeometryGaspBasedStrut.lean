import Verif.Lemmas.CompDeriv

/-! # Partial derivatives of the components of `aviary/subsystems/geometry/gasp_based/strut.py`

One node of a vector component is modelled over the real numbers.  Each option that selects a
branch is fixed, one namespace per choice.  `out_x` is the output `x`, `J_x__y` the entry that
`compute_partials` (or `declare_partials` with `val`) assigns, `d_x__y` the proof that the entry is
the derivative.  Inputs an output does not take as argument have no influence on it.

* `StrutGeom`: not proved: `strut_chord` by `fuselage_avg_diameter`, `strut_length` by
  `fuselage_avg_diameter` -/

set_option linter.all false

namespace Verif.Comp.GeometryGaspBasedStrut.StrutGeom
open Real

/-- aviary/subsystems/geometry/gasp_based/strut.py:66 -/
noncomputable def strut_area (wing_area strut_area_ratio : ℝ) : ℝ := wing_area * strut_area_ratio

/-- aviary/subsystems/geometry/gasp_based/strut.py:76 -/
noncomputable def strut_y (strut_attachment_location : ℝ) : ℝ := strut_attachment_location / 2

/-- aviary/subsystems/geometry/gasp_based/strut.py:77 -/
noncomputable def strut_length (strut_attachment_location fuselage_avg_diameter : ℝ) : ℝ :=
  sqrt ((((strut_y strut_attachment_location) - (fuselage_avg_diameter / 2)) ^ 2) +
    (fuselage_avg_diameter ^ 2))

/-- aviary/subsystems/geometry/gasp_based/strut.py:79 -/
noncomputable def dlength_dstrutx (strut_attachment_location fuselage_avg_diameter : ℝ) : ℝ :=
  ((((1 / 2) * (((((strut_y strut_attachment_location) - (fuselage_avg_diameter / 2)) ^ 2) +
    (fuselage_avg_diameter ^ 2)) ^ ((-(1 / 2)) : ℝ))) * 2) * ((strut_y
    strut_attachment_location) - (fuselage_avg_diameter / 2))) * (1 / 2)

/-- aviary/subsystems/geometry/gasp_based/strut.py:86 -/
noncomputable def dlength_dwidth (strut_attachment_location fuselage_avg_diameter : ℝ) : ℝ :=
  ((5 * fuselage_avg_diameter) - (2 * (strut_y strut_attachment_location))) / (2 * (sqrt (((5 *
    (fuselage_avg_diameter ^ 2)) - ((4 * fuselage_avg_diameter) * (strut_y
    strut_attachment_location))) + (4 * ((strut_y strut_attachment_location) ^ 2)))))

/-- Output `strut_y` of `StrutGeom.compute`, aviary/subsystems/geometry/gasp_based/strut.py:56 -/
noncomputable def out_strut_y (strut_attachment_location : ℝ) : ℝ := strut_attachment_location / 2

/-- Output `strut_length` of `StrutGeom.compute`, aviary/subsystems/geometry/gasp_based/strut.py:63 -/
noncomputable def out_strut_length (strut_attachment_location fuselage_avg_diameter : ℝ) : ℝ :=
  sqrt ((((strut_attachment_location / 2) - (fuselage_avg_diameter / 2)) ^ 2) +
    (fuselage_avg_diameter ^ 2))

/-- Output `strut_area` of `StrutGeom.compute`, aviary/subsystems/geometry/gasp_based/strut.py:66 -/
noncomputable def out_strut_area (wing_area strut_area_ratio : ℝ) : ℝ :=
  strut_area wing_area strut_area_ratio

/-- Output `strut_chord` of `StrutGeom.compute`, aviary/subsystems/geometry/gasp_based/strut.py:67 -/
noncomputable def out_strut_chord (strut_attachment_location wing_area strut_area_ratio fuselage_avg_diameter : ℝ) : ℝ :=
  ((1 / 2) * (strut_area wing_area strut_area_ratio)) / (sqrt ((((strut_attachment_location / 2)
    - (fuselage_avg_diameter / 2)) ^ 2) + (fuselage_avg_diameter ^ 2)))

/-- Partial of `strut_y` with respect to `strut_attachment_location` as set by `StrutGeom`, aviary/subsystems/geometry/gasp_based/strut.py:75 -/
noncomputable def J_strut_y__strut_attachment_location : ℝ := 1 / 2

/-- Partial of `strut_length` with respect to `strut_attachment_location` as set by `StrutGeom`, aviary/subsystems/geometry/gasp_based/strut.py:79 -/
noncomputable def J_strut_length__strut_attachment_location (strut_attachment_location fuselage_avg_diameter : ℝ) : ℝ :=
  dlength_dstrutx strut_attachment_location fuselage_avg_diameter

/-- Partial of `strut_length` with respect to `fuselage_avg_diameter` as set by `StrutGeom`, aviary/subsystems/geometry/gasp_based/strut.py:86 -/
noncomputable def J_strut_length__fuselage_avg_diameter (strut_attachment_location fuselage_avg_diameter : ℝ) : ℝ :=
  dlength_dwidth strut_attachment_location fuselage_avg_diameter

/-- Partial of `strut_chord` with respect to `strut_attachment_location` as set by `StrutGeom`, aviary/subsystems/geometry/gasp_based/strut.py:90 -/
noncomputable def J_strut_chord__strut_attachment_location (strut_attachment_location wing_area strut_area_ratio fuselage_avg_diameter : ℝ) : ℝ :=
  ((((-(1 / 2)) * wing_area) * strut_area_ratio) / ((strut_length strut_attachment_location
    fuselage_avg_diameter) ^ 2)) * (dlength_dstrutx strut_attachment_location
    fuselage_avg_diameter)

/-- Partial of `strut_chord` with respect to `fuselage_avg_diameter` as set by `StrutGeom`, aviary/subsystems/geometry/gasp_based/strut.py:93 -/
noncomputable def J_strut_chord__fuselage_avg_diameter (strut_attachment_location wing_area strut_area_ratio fuselage_avg_diameter : ℝ) : ℝ :=
  ((((-(1 / 2)) * wing_area) * strut_area_ratio) / ((strut_length strut_attachment_location
    fuselage_avg_diameter) ^ 2)) * (dlength_dwidth strut_attachment_location
    fuselage_avg_diameter)

/-- Partial of `strut_chord` with respect to `wing_area` as set by `StrutGeom`, aviary/subsystems/geometry/gasp_based/strut.py:96 -/
noncomputable def J_strut_chord__wing_area (strut_attachment_location strut_area_ratio fuselage_avg_diameter : ℝ) : ℝ :=
  ((1 / 2) / (strut_length strut_attachment_location fuselage_avg_diameter)) * strut_area_ratio

/-- Partial of `strut_chord` with respect to `strut_area_ratio` as set by `StrutGeom`, aviary/subsystems/geometry/gasp_based/strut.py:99 -/
noncomputable def J_strut_chord__strut_area_ratio (strut_attachment_location wing_area fuselage_avg_diameter : ℝ) : ℝ :=
  ((1 / 2) / (strut_length strut_attachment_location fuselage_avg_diameter)) * wing_area

/-- Partial of `strut_area` with respect to `wing_area` as set by `StrutGeom`, aviary/subsystems/geometry/gasp_based/strut.py:101 -/
noncomputable def J_strut_area__wing_area (strut_area_ratio : ℝ) : ℝ := strut_area_ratio

/-- Partial of `strut_area` with respect to `strut_area_ratio` as set by `StrutGeom`, aviary/subsystems/geometry/gasp_based/strut.py:102 -/
noncomputable def J_strut_area__strut_area_ratio (wing_area : ℝ) : ℝ := wing_area

theorem d_strut_y__strut_attachment_location (strut_attachment_location : ℝ)  :
    HasDerivAt (fun t => out_strut_y t) (J_strut_y__strut_attachment_location) strut_attachment_location := by
  simp only [out_strut_y, J_strut_y__strut_attachment_location]
  (apply hasDerivAt_of_eq; on_goal 1 => (repeat' comp_step))
  all_goals try comp_side
  all_goals try simp only [mul_zero, zero_mul, add_zero, zero_add, sub_zero, zero_sub, mul_one, one_mul]
  all_goals try push_cast
  all_goals comp_eq

theorem d_strut_length__strut_attachment_location (strut_attachment_location fuselage_avg_diameter
    : ℝ) (h0 : 0 < fuselage_avg_diameter) :
    HasDerivAt (fun t => out_strut_length t fuselage_avg_diameter) (J_strut_length__strut_attachment_location strut_attachment_location fuselage_avg_diameter) strut_attachment_location := by
  have e0 : ∀ x : ℝ, 0 < x → x ^ ((-(1 / 2)) : ℝ) = x ^ ((1 / 2) : ℝ) / x ^ 1 := fun x hx => rpow_down hx 1 (by norm_num)
  simp only [out_strut_length, J_strut_length__strut_attachment_location, dlength_dstrutx, strut_y, sqrt_eq_rpow]
  (apply hasDerivAt_of_eq; on_goal 1 => (repeat' comp_step))
  all_goals try comp_side
  all_goals try simp (disch := first | assumption | positivity) only [e0, div_mul_eq_div_div, div_half, inv_half]
  all_goals try simp only [mul_zero, zero_mul, add_zero, zero_add, sub_zero, zero_sub, mul_one, one_mul]
  all_goals try push_cast
  all_goals comp_eq

theorem d_strut_area__wing_area (wing_area strut_area_ratio : ℝ)  :
    HasDerivAt (fun t => out_strut_area t strut_area_ratio) (J_strut_area__wing_area strut_area_ratio) wing_area := by
  simp only [out_strut_area, J_strut_area__wing_area, strut_area]
  (apply hasDerivAt_of_eq; on_goal 1 => (repeat' comp_step))
  all_goals try comp_side
  all_goals try simp only [mul_zero, zero_mul, add_zero, zero_add, sub_zero, zero_sub, mul_one, one_mul]
  all_goals try push_cast
  all_goals comp_eq

theorem d_strut_area__strut_area_ratio (wing_area strut_area_ratio : ℝ)  :
    HasDerivAt (fun t => out_strut_area wing_area t) (J_strut_area__strut_area_ratio wing_area) strut_area_ratio := by
  simp only [out_strut_area, J_strut_area__strut_area_ratio, strut_area]
  (apply hasDerivAt_of_eq; on_goal 1 => (repeat' comp_step))
  all_goals try comp_side
  all_goals try simp only [mul_zero, zero_mul, add_zero, zero_add, sub_zero, zero_sub, mul_one, one_mul]
  all_goals try push_cast
  all_goals comp_eq

theorem d_strut_chord__strut_attachment_location (strut_attachment_location wing_area
    strut_area_ratio fuselage_avg_diameter : ℝ) (h0 : 0 < fuselage_avg_diameter) :
    HasDerivAt (fun t => out_strut_chord t wing_area strut_area_ratio fuselage_avg_diameter) (J_strut_chord__strut_attachment_location strut_attachment_location wing_area strut_area_ratio fuselage_avg_diameter) strut_attachment_location := by
  have e0 : ∀ x : ℝ, 0 < x → x ^ ((-(1 / 2)) : ℝ) = x ^ ((1 / 2) : ℝ) / x ^ 1 := fun x hx => rpow_down hx 1 (by norm_num)
  simp only [out_strut_chord, J_strut_chord__strut_attachment_location, dlength_dstrutx, strut_length, strut_y, strut_area, sqrt_eq_rpow]
  (apply hasDerivAt_of_eq; on_goal 1 => (repeat' comp_step))
  all_goals try comp_side
  all_goals try simp (disch := first | assumption | positivity) only [e0, div_mul_eq_div_div, div_half, inv_half]
  all_goals try simp only [mul_zero, zero_mul, add_zero, zero_add, sub_zero, zero_sub, mul_one, one_mul]
  all_goals try push_cast
  all_goals comp_eq

theorem d_strut_chord__wing_area (strut_attachment_location wing_area strut_area_ratio
    fuselage_avg_diameter : ℝ) (h0 : 0 < fuselage_avg_diameter) :
    HasDerivAt (fun t => out_strut_chord strut_attachment_location t strut_area_ratio fuselage_avg_diameter) (J_strut_chord__wing_area strut_attachment_location strut_area_ratio fuselage_avg_diameter) wing_area := by
  simp only [out_strut_chord, J_strut_chord__wing_area, strut_length, strut_y, strut_area, sqrt_eq_rpow]
  (apply hasDerivAt_of_eq; on_goal 1 => (repeat' comp_step))
  all_goals try comp_side
  all_goals try simp (disch := first | assumption | positivity) only [div_mul_eq_div_div, div_half, inv_half]
  all_goals try simp only [mul_zero, zero_mul, add_zero, zero_add, sub_zero, zero_sub, mul_one, one_mul]
  all_goals try push_cast
  all_goals comp_eq

theorem d_strut_chord__strut_area_ratio (strut_attachment_location wing_area strut_area_ratio
    fuselage_avg_diameter : ℝ) (h0 : 0 < fuselage_avg_diameter) :
    HasDerivAt (fun t => out_strut_chord strut_attachment_location wing_area t fuselage_avg_diameter) (J_strut_chord__strut_area_ratio strut_attachment_location wing_area fuselage_avg_diameter) strut_area_ratio := by
  simp only [out_strut_chord, J_strut_chord__strut_area_ratio, strut_length, strut_y, strut_area, sqrt_eq_rpow]
  (apply hasDerivAt_of_eq; on_goal 1 => (repeat' comp_step))
  all_goals try comp_side
  all_goals try simp (disch := first | assumption | positivity) only [div_mul_eq_div_div, div_half, inv_half]
  all_goals try simp only [mul_zero, zero_mul, add_zero, zero_add, sub_zero, zero_sub, mul_one, one_mul]
  all_goals try push_cast
  all_goals comp_eq

/-- Partial derivatives of `StrutGeom` that are proved correct (the rest is listed in the header). -/
theorem partials_partial (strut_attachment_location wing_area strut_area_ratio
    fuselage_avg_diameter : ℝ) (h0 : 0 < fuselage_avg_diameter) :
    HasDerivAt (fun t => out_strut_y t) (J_strut_y__strut_attachment_location)
      strut_attachment_location ∧
    HasDerivAt (fun t => out_strut_length t fuselage_avg_diameter)
      (J_strut_length__strut_attachment_location strut_attachment_location fuselage_avg_diameter)
      strut_attachment_location ∧
    HasDerivAt (fun t => out_strut_area t strut_area_ratio) (J_strut_area__wing_area strut_area_ratio)
      wing_area ∧
    HasDerivAt (fun t => out_strut_area wing_area t) (J_strut_area__strut_area_ratio wing_area)
      strut_area_ratio ∧
    HasDerivAt (fun t => out_strut_chord t wing_area strut_area_ratio fuselage_avg_diameter)
      (J_strut_chord__strut_attachment_location strut_attachment_location wing_area
      strut_area_ratio fuselage_avg_diameter) strut_attachment_location ∧
    HasDerivAt (fun t => out_strut_chord strut_attachment_location t strut_area_ratio
      fuselage_avg_diameter) (J_strut_chord__wing_area strut_attachment_location strut_area_ratio
      fuselage_avg_diameter) wing_area ∧
    HasDerivAt (fun t => out_strut_chord strut_attachment_location wing_area t fuselage_avg_diameter)
      (J_strut_chord__strut_area_ratio strut_attachment_location wing_area fuselage_avg_diameter)
      strut_area_ratio :=
  ⟨d_strut_y__strut_attachment_location _, d_strut_length__strut_attachment_location _ _ h0,
    d_strut_area__wing_area _ _, d_strut_area__strut_area_ratio _ _,
    d_strut_chord__strut_attachment_location _ _ _ _ h0, d_strut_chord__wing_area _ _ _ _ h0,
    d_strut_chord__strut_area_ratio _ _ _ _ h0⟩

example : ∃ strut_attachment_location wing_area strut_area_ratio fuselage_avg_diameter : ℝ,
      0 < fuselage_avg_diameter :=
  ⟨0, 0, 0, 1, by comp_example⟩

end Verif.Comp.GeometryGaspBasedStrut.StrutGeom

