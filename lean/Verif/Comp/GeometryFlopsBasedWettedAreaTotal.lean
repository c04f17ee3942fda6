import Verif.Lemmas.CompDeriv

/-! # Partial derivatives of the components of `aviary/subsystems/geometry/flops_based/wetted_area_total.py`

One node of a vector component is modelled over the real numbers.  Each option that selects a
branch is fixed, one namespace per choice.  `out_x` is the output `x`, `J_x__y` the entry that
`compute_partials` (or `declare_partials` with `val`) assigns, `d_x__y` the proof that the entry is
the derivative.  Inputs an output does not take as argument have no influence on it.

* `FuselageWettedArea`: not proved: `fuselage_wetted_area` by `fuselage_ref_diameter` -/

set_option linter.all false

namespace Verif.Comp.GeometryFlopsBasedWettedAreaTotal.FuselageWettedArea
open Real

/-- aviary/subsystems/geometry/flops_based/wetted_area_total.py:859 -/
noncomputable abbrev cross_section (fuselage_ref_diameter : ℝ) : ℝ :=
  π * ((fuselage_ref_diameter / 2) ^ 2)

/-- aviary/subsystems/geometry/flops_based/wetted_area_total.py:14 -/
noncomputable abbrev adjustment (names_crootb wing_thickness_to_chord : ℝ) : ℝ :=
  ((673 / 1000) * names_crootb) * (wing_thickness_to_chord * names_crootb)

/-- aviary/subsystems/geometry/flops_based/wetted_area_total.py:14 -/
noncomputable abbrev adjustment_2 (names_crthtb horizontaltail_thickness_to_chord : ℝ) : ℝ :=
  ((673 / 1000) * names_crthtb) * (horizontaltail_thickness_to_chord * names_crthtb)

/-- aviary/subsystems/geometry/flops_based/wetted_area_total.py:14 -/
noncomputable abbrev adjustment_3 (names_crotvt verticaltail_thickness_to_chord : ℝ) : ℝ :=
  ((673 / 1000) * names_crotvt) * (verticaltail_thickness_to_chord * names_crotvt)

/-- aviary/subsystems/geometry/flops_based/wetted_area_total.py:882 -/
noncomputable abbrev wetted_area (fuselage_ref_diameter names_crootb wing_thickness_to_chord names_crthtb fuselage_wetted_area_scaler horizontaltail_thickness_to_chord horizontaltail_vertical_tail_mount_location names_crotvt fuselage_length verticaltail_thickness_to_chord : ℝ) : ℝ :=
  fuselage_wetted_area_scaler * (((((π * (fuselage_ref_diameter ^ 2)) * ((fuselage_length /
    fuselage_ref_diameter) - (17 / 10))) - (2 * (adjustment names_crootb
    wing_thickness_to_chord))) - ((2 * (adjustment_2 names_crthtb
    horizontaltail_thickness_to_chord)) * (1 - horizontaltail_vertical_tail_mount_location))) -
    (adjustment_3 names_crotvt verticaltail_thickness_to_chord))

/-- aviary/subsystems/geometry/flops_based/wetted_area_total.py:862 -/
noncomputable abbrev wetted_area_2 (fuselage_num_fuselages fuselage_ref_diameter names_crootb wing_thickness_to_chord names_crthtb fuselage_wetted_area_scaler horizontaltail_thickness_to_chord horizontaltail_vertical_tail_mount_location names_crotvt fuselage_length verticaltail_thickness_to_chord : ℝ) : ℝ :=
  if (0 < fuselage_num_fuselages ∧ 0 < fuselage_ref_diameter) then (wetted_area
    fuselage_ref_diameter names_crootb wing_thickness_to_chord names_crthtb
    fuselage_wetted_area_scaler horizontaltail_thickness_to_chord
    horizontaltail_vertical_tail_mount_location names_crotvt fuselage_length
    verticaltail_thickness_to_chord) else 0

/-- aviary/subsystems/geometry/flops_based/wetted_area_total.py:21 -/
noncomputable abbrev d1 (names_crootb wing_thickness_to_chord : ℝ) : ℝ :=
  ((673 / 500) * wing_thickness_to_chord) * names_crootb

/-- aviary/subsystems/geometry/flops_based/wetted_area_total.py:22 -/
noncomputable abbrev d2 (names_crootb : ℝ) : ℝ := (673 / 1000) * (names_crootb ^ 2)

/-- aviary/subsystems/geometry/flops_based/wetted_area_total.py:21 -/
noncomputable abbrev d1_2 (names_crthtb horizontaltail_thickness_to_chord : ℝ) : ℝ :=
  ((673 / 500) * horizontaltail_thickness_to_chord) * names_crthtb

/-- aviary/subsystems/geometry/flops_based/wetted_area_total.py:22 -/
noncomputable abbrev d2_2 (names_crthtb : ℝ) : ℝ := (673 / 1000) * (names_crthtb ^ 2)

/-- aviary/subsystems/geometry/flops_based/wetted_area_total.py:21 -/
noncomputable abbrev d1_3 (names_crotvt verticaltail_thickness_to_chord : ℝ) : ℝ :=
  ((673 / 500) * verticaltail_thickness_to_chord) * names_crotvt

/-- aviary/subsystems/geometry/flops_based/wetted_area_total.py:22 -/
noncomputable abbrev d2_3 (names_crotvt : ℝ) : ℝ := (673 / 1000) * (names_crotvt ^ 2)

/-- Output `fuselage_cross_section` of `FuselageWettedArea.compute`, aviary/subsystems/geometry/flops_based/wetted_area_total.py:860 -/
noncomputable def out_fuselage_cross_section (fuselage_ref_diameter : ℝ) : ℝ :=
  cross_section fuselage_ref_diameter

/-- Output `fuselage_wetted_area` of `FuselageWettedArea.compute`, aviary/subsystems/geometry/flops_based/wetted_area_total.py:891 -/
noncomputable def out_fuselage_wetted_area (fuselage_num_fuselages fuselage_ref_diameter names_crootb wing_thickness_to_chord names_crthtb fuselage_wetted_area_scaler horizontaltail_thickness_to_chord horizontaltail_vertical_tail_mount_location names_crotvt fuselage_length verticaltail_thickness_to_chord : ℝ) : ℝ :=
  wetted_area_2 fuselage_num_fuselages fuselage_ref_diameter names_crootb
    wing_thickness_to_chord names_crthtb fuselage_wetted_area_scaler
    horizontaltail_thickness_to_chord horizontaltail_vertical_tail_mount_location names_crotvt
    fuselage_length verticaltail_thickness_to_chord

/-- Partial of `fuselage_cross_section` with respect to `fuselage_ref_diameter` as set by `FuselageWettedArea`, aviary/subsystems/geometry/flops_based/wetted_area_total.py:898 -/
noncomputable def J_fuselage_cross_section__fuselage_ref_diameter (fuselage_ref_diameter : ℝ) : ℝ :=
  ((1 / 2) * π) * fuselage_ref_diameter

/-- Partial of `fuselage_wetted_area` with respect to `fuselage_ref_diameter` as set by `FuselageWettedArea`, aviary/subsystems/geometry/flops_based/wetted_area_total.py:961 -/
noncomputable def J_fuselage_wetted_area__fuselage_ref_diameter (fuselage_num_fuselages fuselage_ref_diameter fuselage_wetted_area_scaler fuselage_length : ℝ) : ℝ :=
  if (0 < fuselage_num_fuselages ∧ 0 < fuselage_ref_diameter) then ((fuselage_wetted_area_scaler
    * π) * (fuselage_length - ((17 / 5) * fuselage_ref_diameter))) else 0

/-- Partial of `fuselage_wetted_area` with respect to `fuselage_length` as set by `FuselageWettedArea`, aviary/subsystems/geometry/flops_based/wetted_area_total.py:961 -/
noncomputable def J_fuselage_wetted_area__fuselage_length (fuselage_num_fuselages fuselage_ref_diameter fuselage_wetted_area_scaler : ℝ) : ℝ :=
  if (0 < fuselage_num_fuselages ∧ 0 < fuselage_ref_diameter) then ((fuselage_wetted_area_scaler
    * π) * fuselage_ref_diameter) else 0

/-- Partial of `fuselage_wetted_area` with respect to `fuselage_wetted_area_scaler` as set by `FuselageWettedArea`, aviary/subsystems/geometry/flops_based/wetted_area_total.py:961 -/
noncomputable def J_fuselage_wetted_area__fuselage_wetted_area_scaler (fuselage_num_fuselages fuselage_ref_diameter names_crootb wing_thickness_to_chord names_crthtb horizontaltail_thickness_to_chord horizontaltail_vertical_tail_mount_location names_crotvt fuselage_length verticaltail_thickness_to_chord : ℝ) : ℝ :=
  if (0 < fuselage_num_fuselages ∧ 0 < fuselage_ref_diameter) then (((((π *
    (fuselage_ref_diameter ^ 2)) * ((fuselage_length / fuselage_ref_diameter) - (17 / 10))) - (2
    * (adjustment names_crootb wing_thickness_to_chord))) - ((2 * (adjustment_2 names_crthtb
    horizontaltail_thickness_to_chord)) * (1 - horizontaltail_vertical_tail_mount_location))) -
    (adjustment_3 names_crotvt verticaltail_thickness_to_chord)) else 0

/-- Partial of `fuselage_wetted_area` with respect to `names_crootb` as set by `FuselageWettedArea`, aviary/subsystems/geometry/flops_based/wetted_area_total.py:961 -/
noncomputable def J_fuselage_wetted_area__names_crootb (fuselage_num_fuselages fuselage_ref_diameter names_crootb wing_thickness_to_chord fuselage_wetted_area_scaler : ℝ) : ℝ :=
  if (0 < fuselage_num_fuselages ∧ 0 < fuselage_ref_diameter) then ((fuselage_wetted_area_scaler
    * (-2)) * (d1 names_crootb wing_thickness_to_chord)) else 0

/-- Partial of `fuselage_wetted_area` with respect to `names_crthtb` as set by `FuselageWettedArea`, aviary/subsystems/geometry/flops_based/wetted_area_total.py:961 -/
noncomputable def J_fuselage_wetted_area__names_crthtb (fuselage_num_fuselages fuselage_ref_diameter names_crthtb fuselage_wetted_area_scaler horizontaltail_thickness_to_chord horizontaltail_vertical_tail_mount_location : ℝ) : ℝ :=
  if (0 < fuselage_num_fuselages ∧ 0 < fuselage_ref_diameter) then
    (((fuselage_wetted_area_scaler * (-2)) * (d1_2 names_crthtb
    horizontaltail_thickness_to_chord)) * (1 - horizontaltail_vertical_tail_mount_location))
    else 0

/-- Partial of `fuselage_wetted_area` with respect to `names_crotvt` as set by `FuselageWettedArea`, aviary/subsystems/geometry/flops_based/wetted_area_total.py:961 -/
noncomputable def J_fuselage_wetted_area__names_crotvt (fuselage_num_fuselages fuselage_ref_diameter fuselage_wetted_area_scaler names_crotvt verticaltail_thickness_to_chord : ℝ) : ℝ :=
  if (0 < fuselage_num_fuselages ∧ 0 < fuselage_ref_diameter) then (fuselage_wetted_area_scaler
    * (-(d1_3 names_crotvt verticaltail_thickness_to_chord))) else 0

/-- Partial of `fuselage_wetted_area` with respect to `wing_thickness_to_chord` as set by `FuselageWettedArea`, aviary/subsystems/geometry/flops_based/wetted_area_total.py:961 -/
noncomputable def J_fuselage_wetted_area__wing_thickness_to_chord (fuselage_num_fuselages fuselage_ref_diameter names_crootb fuselage_wetted_area_scaler : ℝ) : ℝ :=
  if (0 < fuselage_num_fuselages ∧ 0 < fuselage_ref_diameter) then ((fuselage_wetted_area_scaler
    * (-2)) * (d2 names_crootb)) else 0

/-- Partial of `fuselage_wetted_area` with respect to `horizontaltail_thickness_to_chord` as set by `FuselageWettedArea`, aviary/subsystems/geometry/flops_based/wetted_area_total.py:961 -/
noncomputable def J_fuselage_wetted_area__horizontaltail_thickness_to_chord (fuselage_num_fuselages fuselage_ref_diameter names_crthtb fuselage_wetted_area_scaler horizontaltail_vertical_tail_mount_location : ℝ) : ℝ :=
  if (0 < fuselage_num_fuselages ∧ 0 < fuselage_ref_diameter) then
    (((fuselage_wetted_area_scaler * (-2)) * (d2_2 names_crthtb)) * (1 -
    horizontaltail_vertical_tail_mount_location)) else 0

/-- Partial of `fuselage_wetted_area` with respect to `verticaltail_thickness_to_chord` as set by `FuselageWettedArea`, aviary/subsystems/geometry/flops_based/wetted_area_total.py:961 -/
noncomputable def J_fuselage_wetted_area__verticaltail_thickness_to_chord (fuselage_num_fuselages fuselage_ref_diameter fuselage_wetted_area_scaler names_crotvt : ℝ) : ℝ :=
  if (0 < fuselage_num_fuselages ∧ 0 < fuselage_ref_diameter) then (fuselage_wetted_area_scaler
    * (-(d2_3 names_crotvt))) else 0

/-- Partial of `fuselage_wetted_area` with respect to `horizontaltail_vertical_tail_mount_location` as set by `FuselageWettedArea`, aviary/subsystems/geometry/flops_based/wetted_area_total.py:961 -/
noncomputable def J_fuselage_wetted_area__horizontaltail_vertical_tail_mount_location (fuselage_num_fuselages fuselage_ref_diameter names_crthtb fuselage_wetted_area_scaler horizontaltail_thickness_to_chord : ℝ) : ℝ :=
  if (0 < fuselage_num_fuselages ∧ 0 < fuselage_ref_diameter) then ((fuselage_wetted_area_scaler
    * 2) * (adjustment_2 names_crthtb horizontaltail_thickness_to_chord)) else 0

theorem d_fuselage_cross_section__fuselage_ref_diameter (fuselage_ref_diameter : ℝ)  :
    HasDerivAt (fun t => out_fuselage_cross_section t) (J_fuselage_cross_section__fuselage_ref_diameter fuselage_ref_diameter) fuselage_ref_diameter := by
  simp only [out_fuselage_cross_section, J_fuselage_cross_section__fuselage_ref_diameter, cross_section]
  (apply hasDerivAt_of_eq; on_goal 1 => (repeat' comp_step))
  all_goals try comp_side
  all_goals try simp only [mul_zero, zero_mul, add_zero, zero_add, sub_zero, zero_sub, mul_one, one_mul]
  all_goals try push_cast
  all_goals comp_eq

theorem d_fuselage_wetted_area__names_crootb (fuselage_num_fuselages fuselage_ref_diameter
    names_crootb wing_thickness_to_chord names_crthtb fuselage_wetted_area_scaler
    horizontaltail_thickness_to_chord horizontaltail_vertical_tail_mount_location names_crotvt
    fuselage_length verticaltail_thickness_to_chord : ℝ) (h0 : 0 < fuselage_ref_diameter) :
    HasDerivAt (fun t => out_fuselage_wetted_area fuselage_num_fuselages fuselage_ref_diameter t wing_thickness_to_chord names_crthtb fuselage_wetted_area_scaler horizontaltail_thickness_to_chord horizontaltail_vertical_tail_mount_location names_crotvt fuselage_length verticaltail_thickness_to_chord) (J_fuselage_wetted_area__names_crootb fuselage_num_fuselages fuselage_ref_diameter names_crootb wing_thickness_to_chord fuselage_wetted_area_scaler) names_crootb := by
  simp only [out_fuselage_wetted_area, J_fuselage_wetted_area__names_crootb, d1, wetted_area_2, wetted_area, adjustment_3, adjustment_2, adjustment]
  try split_ifs
  all_goals (apply hasDerivAt_of_eq; on_goal 1 => (repeat' comp_step))
  all_goals try comp_side
  all_goals try split_ifs
  all_goals try (exfalso; linarith)
  all_goals try simp only [mul_zero, zero_mul, add_zero, zero_add, sub_zero, zero_sub, mul_one, one_mul]
  all_goals try push_cast
  all_goals comp_eq

theorem d_fuselage_wetted_area__wing_thickness_to_chord (fuselage_num_fuselages
    fuselage_ref_diameter names_crootb wing_thickness_to_chord names_crthtb
    fuselage_wetted_area_scaler horizontaltail_thickness_to_chord
    horizontaltail_vertical_tail_mount_location names_crotvt fuselage_length
    verticaltail_thickness_to_chord : ℝ) (h0 : 0 < fuselage_ref_diameter) :
    HasDerivAt (fun t => out_fuselage_wetted_area fuselage_num_fuselages fuselage_ref_diameter names_crootb t names_crthtb fuselage_wetted_area_scaler horizontaltail_thickness_to_chord horizontaltail_vertical_tail_mount_location names_crotvt fuselage_length verticaltail_thickness_to_chord) (J_fuselage_wetted_area__wing_thickness_to_chord fuselage_num_fuselages fuselage_ref_diameter names_crootb fuselage_wetted_area_scaler) wing_thickness_to_chord := by
  simp only [out_fuselage_wetted_area, J_fuselage_wetted_area__wing_thickness_to_chord, d2, wetted_area_2, wetted_area, adjustment_3, adjustment_2, adjustment]
  try split_ifs
  all_goals (apply hasDerivAt_of_eq; on_goal 1 => (repeat' comp_step))
  all_goals try comp_side
  all_goals try split_ifs
  all_goals try (exfalso; linarith)
  all_goals try simp only [mul_zero, zero_mul, add_zero, zero_add, sub_zero, zero_sub, mul_one, one_mul]
  all_goals try push_cast
  all_goals comp_eq

theorem d_fuselage_wetted_area__names_crthtb (fuselage_num_fuselages fuselage_ref_diameter
    names_crootb wing_thickness_to_chord names_crthtb fuselage_wetted_area_scaler
    horizontaltail_thickness_to_chord horizontaltail_vertical_tail_mount_location names_crotvt
    fuselage_length verticaltail_thickness_to_chord : ℝ) (h0 : 0 < fuselage_ref_diameter) :
    HasDerivAt (fun t => out_fuselage_wetted_area fuselage_num_fuselages fuselage_ref_diameter names_crootb wing_thickness_to_chord t fuselage_wetted_area_scaler horizontaltail_thickness_to_chord horizontaltail_vertical_tail_mount_location names_crotvt fuselage_length verticaltail_thickness_to_chord) (J_fuselage_wetted_area__names_crthtb fuselage_num_fuselages fuselage_ref_diameter names_crthtb fuselage_wetted_area_scaler horizontaltail_thickness_to_chord horizontaltail_vertical_tail_mount_location) names_crthtb := by
  simp only [out_fuselage_wetted_area, J_fuselage_wetted_area__names_crthtb, d1_2, wetted_area_2, wetted_area, adjustment_3, adjustment_2, adjustment]
  try split_ifs
  all_goals (apply hasDerivAt_of_eq; on_goal 1 => (repeat' comp_step))
  all_goals try comp_side
  all_goals try split_ifs
  all_goals try (exfalso; linarith)
  all_goals try simp only [mul_zero, zero_mul, add_zero, zero_add, sub_zero, zero_sub, mul_one, one_mul]
  all_goals try push_cast
  all_goals comp_eq

theorem d_fuselage_wetted_area__fuselage_wetted_area_scaler (fuselage_num_fuselages
    fuselage_ref_diameter names_crootb wing_thickness_to_chord names_crthtb
    fuselage_wetted_area_scaler horizontaltail_thickness_to_chord
    horizontaltail_vertical_tail_mount_location names_crotvt fuselage_length
    verticaltail_thickness_to_chord : ℝ) (h0 : 0 < fuselage_ref_diameter) :
    HasDerivAt (fun t => out_fuselage_wetted_area fuselage_num_fuselages fuselage_ref_diameter names_crootb wing_thickness_to_chord names_crthtb t horizontaltail_thickness_to_chord horizontaltail_vertical_tail_mount_location names_crotvt fuselage_length verticaltail_thickness_to_chord) (J_fuselage_wetted_area__fuselage_wetted_area_scaler fuselage_num_fuselages fuselage_ref_diameter names_crootb wing_thickness_to_chord names_crthtb horizontaltail_thickness_to_chord horizontaltail_vertical_tail_mount_location names_crotvt fuselage_length verticaltail_thickness_to_chord) fuselage_wetted_area_scaler := by
  simp only [out_fuselage_wetted_area, J_fuselage_wetted_area__fuselage_wetted_area_scaler, wetted_area_2, wetted_area, adjustment_3, adjustment_2, adjustment]
  try split_ifs
  all_goals (apply hasDerivAt_of_eq; on_goal 1 => (repeat' comp_step))
  all_goals try comp_side
  all_goals try split_ifs
  all_goals try (exfalso; linarith)
  all_goals try simp only [mul_zero, zero_mul, add_zero, zero_add, sub_zero, zero_sub, mul_one, one_mul]
  all_goals try push_cast
  all_goals comp_eq

theorem d_fuselage_wetted_area__horizontaltail_thickness_to_chord (fuselage_num_fuselages
    fuselage_ref_diameter names_crootb wing_thickness_to_chord names_crthtb
    fuselage_wetted_area_scaler horizontaltail_thickness_to_chord
    horizontaltail_vertical_tail_mount_location names_crotvt fuselage_length
    verticaltail_thickness_to_chord : ℝ) (h0 : 0 < fuselage_ref_diameter) :
    HasDerivAt (fun t => out_fuselage_wetted_area fuselage_num_fuselages fuselage_ref_diameter names_crootb wing_thickness_to_chord names_crthtb fuselage_wetted_area_scaler t horizontaltail_vertical_tail_mount_location names_crotvt fuselage_length verticaltail_thickness_to_chord) (J_fuselage_wetted_area__horizontaltail_thickness_to_chord fuselage_num_fuselages fuselage_ref_diameter names_crthtb fuselage_wetted_area_scaler horizontaltail_vertical_tail_mount_location) horizontaltail_thickness_to_chord := by
  simp only [out_fuselage_wetted_area, J_fuselage_wetted_area__horizontaltail_thickness_to_chord, d2_2, wetted_area_2, wetted_area, adjustment_3, adjustment_2, adjustment]
  try split_ifs
  all_goals (apply hasDerivAt_of_eq; on_goal 1 => (repeat' comp_step))
  all_goals try comp_side
  all_goals try split_ifs
  all_goals try (exfalso; linarith)
  all_goals try simp only [mul_zero, zero_mul, add_zero, zero_add, sub_zero, zero_sub, mul_one, one_mul]
  all_goals try push_cast
  all_goals comp_eq

theorem d_fuselage_wetted_area__horizontaltail_vertical_tail_mount_location
    (fuselage_num_fuselages fuselage_ref_diameter names_crootb wing_thickness_to_chord
    names_crthtb fuselage_wetted_area_scaler horizontaltail_thickness_to_chord
    horizontaltail_vertical_tail_mount_location names_crotvt fuselage_length
    verticaltail_thickness_to_chord : ℝ) (h0 : 0 < fuselage_ref_diameter) :
    HasDerivAt (fun t => out_fuselage_wetted_area fuselage_num_fuselages fuselage_ref_diameter names_crootb wing_thickness_to_chord names_crthtb fuselage_wetted_area_scaler horizontaltail_thickness_to_chord t names_crotvt fuselage_length verticaltail_thickness_to_chord) (J_fuselage_wetted_area__horizontaltail_vertical_tail_mount_location fuselage_num_fuselages fuselage_ref_diameter names_crthtb fuselage_wetted_area_scaler horizontaltail_thickness_to_chord) horizontaltail_vertical_tail_mount_location := by
  simp only [out_fuselage_wetted_area, J_fuselage_wetted_area__horizontaltail_vertical_tail_mount_location, wetted_area_2, wetted_area, adjustment_3, adjustment_2, adjustment]
  try split_ifs
  all_goals (apply hasDerivAt_of_eq; on_goal 1 => (repeat' comp_step))
  all_goals try comp_side
  all_goals try split_ifs
  all_goals try (exfalso; linarith)
  all_goals try simp only [mul_zero, zero_mul, add_zero, zero_add, sub_zero, zero_sub, mul_one, one_mul]
  all_goals try push_cast
  all_goals comp_eq

theorem d_fuselage_wetted_area__names_crotvt (fuselage_num_fuselages fuselage_ref_diameter
    names_crootb wing_thickness_to_chord names_crthtb fuselage_wetted_area_scaler
    horizontaltail_thickness_to_chord horizontaltail_vertical_tail_mount_location names_crotvt
    fuselage_length verticaltail_thickness_to_chord : ℝ) (h0 : 0 < fuselage_ref_diameter) :
    HasDerivAt (fun t => out_fuselage_wetted_area fuselage_num_fuselages fuselage_ref_diameter names_crootb wing_thickness_to_chord names_crthtb fuselage_wetted_area_scaler horizontaltail_thickness_to_chord horizontaltail_vertical_tail_mount_location t fuselage_length verticaltail_thickness_to_chord) (J_fuselage_wetted_area__names_crotvt fuselage_num_fuselages fuselage_ref_diameter fuselage_wetted_area_scaler names_crotvt verticaltail_thickness_to_chord) names_crotvt := by
  simp only [out_fuselage_wetted_area, J_fuselage_wetted_area__names_crotvt, d1_3, wetted_area_2, wetted_area, adjustment_3, adjustment_2, adjustment]
  try split_ifs
  all_goals (apply hasDerivAt_of_eq; on_goal 1 => (repeat' comp_step))
  all_goals try comp_side
  all_goals try split_ifs
  all_goals try (exfalso; linarith)
  all_goals try simp only [mul_zero, zero_mul, add_zero, zero_add, sub_zero, zero_sub, mul_one, one_mul]
  all_goals try push_cast
  all_goals comp_eq

theorem d_fuselage_wetted_area__fuselage_length (fuselage_num_fuselages fuselage_ref_diameter
    names_crootb wing_thickness_to_chord names_crthtb fuselage_wetted_area_scaler
    horizontaltail_thickness_to_chord horizontaltail_vertical_tail_mount_location names_crotvt
    fuselage_length verticaltail_thickness_to_chord : ℝ) (h0 : 0 < fuselage_ref_diameter) :
    HasDerivAt (fun t => out_fuselage_wetted_area fuselage_num_fuselages fuselage_ref_diameter names_crootb wing_thickness_to_chord names_crthtb fuselage_wetted_area_scaler horizontaltail_thickness_to_chord horizontaltail_vertical_tail_mount_location names_crotvt t verticaltail_thickness_to_chord) (J_fuselage_wetted_area__fuselage_length fuselage_num_fuselages fuselage_ref_diameter fuselage_wetted_area_scaler) fuselage_length := by
  simp only [out_fuselage_wetted_area, J_fuselage_wetted_area__fuselage_length, wetted_area_2, wetted_area, adjustment_3, adjustment_2, adjustment]
  try split_ifs
  all_goals (apply hasDerivAt_of_eq; on_goal 1 => (repeat' comp_step))
  all_goals try comp_side
  all_goals try split_ifs
  all_goals try (exfalso; linarith)
  all_goals try simp only [mul_zero, zero_mul, add_zero, zero_add, sub_zero, zero_sub, mul_one, one_mul]
  all_goals try push_cast
  all_goals comp_eq

theorem d_fuselage_wetted_area__verticaltail_thickness_to_chord (fuselage_num_fuselages
    fuselage_ref_diameter names_crootb wing_thickness_to_chord names_crthtb
    fuselage_wetted_area_scaler horizontaltail_thickness_to_chord
    horizontaltail_vertical_tail_mount_location names_crotvt fuselage_length
    verticaltail_thickness_to_chord : ℝ) (h0 : 0 < fuselage_ref_diameter) :
    HasDerivAt (fun t => out_fuselage_wetted_area fuselage_num_fuselages fuselage_ref_diameter names_crootb wing_thickness_to_chord names_crthtb fuselage_wetted_area_scaler horizontaltail_thickness_to_chord horizontaltail_vertical_tail_mount_location names_crotvt fuselage_length t) (J_fuselage_wetted_area__verticaltail_thickness_to_chord fuselage_num_fuselages fuselage_ref_diameter fuselage_wetted_area_scaler names_crotvt) verticaltail_thickness_to_chord := by
  simp only [out_fuselage_wetted_area, J_fuselage_wetted_area__verticaltail_thickness_to_chord, d2_3, wetted_area_2, wetted_area, adjustment_3, adjustment_2, adjustment]
  try split_ifs
  all_goals (apply hasDerivAt_of_eq; on_goal 1 => (repeat' comp_step))
  all_goals try comp_side
  all_goals try split_ifs
  all_goals try (exfalso; linarith)
  all_goals try simp only [mul_zero, zero_mul, add_zero, zero_add, sub_zero, zero_sub, mul_one, one_mul]
  all_goals try push_cast
  all_goals comp_eq

/-- Partial derivatives of `FuselageWettedArea` that are proved correct (the rest is listed in the header). -/
theorem partials_partial (fuselage_num_fuselages fuselage_ref_diameter names_crootb
    wing_thickness_to_chord names_crthtb fuselage_wetted_area_scaler
    horizontaltail_thickness_to_chord horizontaltail_vertical_tail_mount_location names_crotvt
    fuselage_length verticaltail_thickness_to_chord : ℝ) (h0 : 0 < fuselage_ref_diameter) :
    HasDerivAt (fun t => out_fuselage_cross_section t)
      (J_fuselage_cross_section__fuselage_ref_diameter fuselage_ref_diameter)
      fuselage_ref_diameter ∧
    HasDerivAt (fun t => out_fuselage_wetted_area fuselage_num_fuselages fuselage_ref_diameter t
      wing_thickness_to_chord names_crthtb fuselage_wetted_area_scaler
      horizontaltail_thickness_to_chord horizontaltail_vertical_tail_mount_location names_crotvt
      fuselage_length verticaltail_thickness_to_chord) (J_fuselage_wetted_area__names_crootb
      fuselage_num_fuselages fuselage_ref_diameter names_crootb wing_thickness_to_chord
      fuselage_wetted_area_scaler) names_crootb ∧
    HasDerivAt (fun t => out_fuselage_wetted_area fuselage_num_fuselages fuselage_ref_diameter
      names_crootb t names_crthtb fuselage_wetted_area_scaler horizontaltail_thickness_to_chord
      horizontaltail_vertical_tail_mount_location names_crotvt fuselage_length
      verticaltail_thickness_to_chord) (J_fuselage_wetted_area__wing_thickness_to_chord
      fuselage_num_fuselages fuselage_ref_diameter names_crootb fuselage_wetted_area_scaler)
      wing_thickness_to_chord ∧
    HasDerivAt (fun t => out_fuselage_wetted_area fuselage_num_fuselages fuselage_ref_diameter
      names_crootb wing_thickness_to_chord t fuselage_wetted_area_scaler
      horizontaltail_thickness_to_chord horizontaltail_vertical_tail_mount_location names_crotvt
      fuselage_length verticaltail_thickness_to_chord) (J_fuselage_wetted_area__names_crthtb
      fuselage_num_fuselages fuselage_ref_diameter names_crthtb fuselage_wetted_area_scaler
      horizontaltail_thickness_to_chord horizontaltail_vertical_tail_mount_location) names_crthtb ∧
    HasDerivAt (fun t => out_fuselage_wetted_area fuselage_num_fuselages fuselage_ref_diameter
      names_crootb wing_thickness_to_chord names_crthtb t horizontaltail_thickness_to_chord
      horizontaltail_vertical_tail_mount_location names_crotvt fuselage_length
      verticaltail_thickness_to_chord) (J_fuselage_wetted_area__fuselage_wetted_area_scaler
      fuselage_num_fuselages fuselage_ref_diameter names_crootb wing_thickness_to_chord
      names_crthtb horizontaltail_thickness_to_chord horizontaltail_vertical_tail_mount_location
      names_crotvt fuselage_length verticaltail_thickness_to_chord) fuselage_wetted_area_scaler ∧
    HasDerivAt (fun t => out_fuselage_wetted_area fuselage_num_fuselages fuselage_ref_diameter
      names_crootb wing_thickness_to_chord names_crthtb fuselage_wetted_area_scaler t
      horizontaltail_vertical_tail_mount_location names_crotvt fuselage_length
      verticaltail_thickness_to_chord) (J_fuselage_wetted_area__horizontaltail_thickness_to_chord
      fuselage_num_fuselages fuselage_ref_diameter names_crthtb fuselage_wetted_area_scaler
      horizontaltail_vertical_tail_mount_location) horizontaltail_thickness_to_chord ∧
    HasDerivAt (fun t => out_fuselage_wetted_area fuselage_num_fuselages fuselage_ref_diameter
      names_crootb wing_thickness_to_chord names_crthtb fuselage_wetted_area_scaler
      horizontaltail_thickness_to_chord t names_crotvt fuselage_length
      verticaltail_thickness_to_chord)
      (J_fuselage_wetted_area__horizontaltail_vertical_tail_mount_location fuselage_num_fuselages
      fuselage_ref_diameter names_crthtb fuselage_wetted_area_scaler
      horizontaltail_thickness_to_chord) horizontaltail_vertical_tail_mount_location ∧
    HasDerivAt (fun t => out_fuselage_wetted_area fuselage_num_fuselages fuselage_ref_diameter
      names_crootb wing_thickness_to_chord names_crthtb fuselage_wetted_area_scaler
      horizontaltail_thickness_to_chord horizontaltail_vertical_tail_mount_location t
      fuselage_length verticaltail_thickness_to_chord) (J_fuselage_wetted_area__names_crotvt
      fuselage_num_fuselages fuselage_ref_diameter fuselage_wetted_area_scaler names_crotvt
      verticaltail_thickness_to_chord) names_crotvt ∧
    HasDerivAt (fun t => out_fuselage_wetted_area fuselage_num_fuselages fuselage_ref_diameter
      names_crootb wing_thickness_to_chord names_crthtb fuselage_wetted_area_scaler
      horizontaltail_thickness_to_chord horizontaltail_vertical_tail_mount_location names_crotvt t
      verticaltail_thickness_to_chord) (J_fuselage_wetted_area__fuselage_length
      fuselage_num_fuselages fuselage_ref_diameter fuselage_wetted_area_scaler) fuselage_length ∧
    HasDerivAt (fun t => out_fuselage_wetted_area fuselage_num_fuselages fuselage_ref_diameter
      names_crootb wing_thickness_to_chord names_crthtb fuselage_wetted_area_scaler
      horizontaltail_thickness_to_chord horizontaltail_vertical_tail_mount_location names_crotvt
      fuselage_length t) (J_fuselage_wetted_area__verticaltail_thickness_to_chord
      fuselage_num_fuselages fuselage_ref_diameter fuselage_wetted_area_scaler names_crotvt)
      verticaltail_thickness_to_chord :=
  ⟨d_fuselage_cross_section__fuselage_ref_diameter _, d_fuselage_wetted_area__names_crootb _ _ _ _
    _ _ _ _ _ _ _ h0, d_fuselage_wetted_area__wing_thickness_to_chord _ _ _ _ _ _ _ _ _ _ _ h0,
    d_fuselage_wetted_area__names_crthtb _ _ _ _ _ _ _ _ _ _ _ h0,
    d_fuselage_wetted_area__fuselage_wetted_area_scaler _ _ _ _ _ _ _ _ _ _ _ h0,
    d_fuselage_wetted_area__horizontaltail_thickness_to_chord _ _ _ _ _ _ _ _ _ _ _ h0,
    d_fuselage_wetted_area__horizontaltail_vertical_tail_mount_location _ _ _ _ _ _ _ _ _ _ _ h0,
    d_fuselage_wetted_area__names_crotvt _ _ _ _ _ _ _ _ _ _ _ h0,
    d_fuselage_wetted_area__fuselage_length _ _ _ _ _ _ _ _ _ _ _ h0,
    d_fuselage_wetted_area__verticaltail_thickness_to_chord _ _ _ _ _ _ _ _ _ _ _ h0⟩

example : ∃ fuselage_num_fuselages fuselage_ref_diameter names_crootb wing_thickness_to_chord
      names_crthtb fuselage_wetted_area_scaler horizontaltail_thickness_to_chord
      horizontaltail_vertical_tail_mount_location names_crotvt fuselage_length
      verticaltail_thickness_to_chord : ℝ,
      0 < fuselage_ref_diameter :=
  ⟨0, 1, 0, 0, 0, 0, 0, 0, 0, 0, 0, by comp_example⟩

end Verif.Comp.GeometryFlopsBasedWettedAreaTotal.FuselageWettedArea

namespace Verif.Comp.GeometryFlopsBasedWettedAreaTotal.TailWettedArea_wingspanefficiencyreduction
open Real

/-- aviary/subsystems/geometry/flops_based/wetted_area_total.py:702 -/
noncomputable def wetted_area (names_xmulth horizontaltail_area horizontaltail_wetted_area_scaler : ℝ) : ℝ :=
  (horizontaltail_wetted_area_scaler * names_xmulth) * horizontaltail_area

/-- aviary/subsystems/geometry/flops_based/wetted_area_total.py:722 -/
noncomputable def wetted_area_2 (names_xmultv verticaltail_area verticaltail_wetted_area_scaler : ℝ) : ℝ :=
  (verticaltail_wetted_area_scaler * names_xmultv) * verticaltail_area

/-- Output `horizontaltail_wetted_area` of `TailWettedArea.compute`, aviary/subsystems/geometry/flops_based/wetted_area_total.py:715 -/
noncomputable def out_horizontaltail_wetted_area (names_xmulth horizontaltail_area horizontaltail_wetted_area_scaler : ℝ) : ℝ :=
  wetted_area names_xmulth horizontaltail_area horizontaltail_wetted_area_scaler

/-- Output `verticaltail_wetted_area` of `TailWettedArea.compute`, aviary/subsystems/geometry/flops_based/wetted_area_total.py:724 -/
noncomputable def out_verticaltail_wetted_area (names_xmultv verticaltail_area verticaltail_wetted_area_scaler : ℝ) : ℝ :=
  wetted_area_2 names_xmultv verticaltail_area verticaltail_wetted_area_scaler

/-- Partial of `horizontaltail_wetted_area` with respect to `names_xmulth` as set by `TailWettedArea`, aviary/subsystems/geometry/flops_based/wetted_area_total.py:761 -/
noncomputable def J_horizontaltail_wetted_area__names_xmulth (horizontaltail_area horizontaltail_wetted_area_scaler : ℝ) : ℝ :=
  horizontaltail_wetted_area_scaler * horizontaltail_area

/-- Partial of `horizontaltail_wetted_area` with respect to `horizontaltail_area` as set by `TailWettedArea`, aviary/subsystems/geometry/flops_based/wetted_area_total.py:763 -/
noncomputable def J_horizontaltail_wetted_area__horizontaltail_area (names_xmulth horizontaltail_wetted_area_scaler : ℝ) : ℝ :=
  horizontaltail_wetted_area_scaler * names_xmulth

/-- Partial of `horizontaltail_wetted_area` with respect to `horizontaltail_wetted_area_scaler` as set by `TailWettedArea`, aviary/subsystems/geometry/flops_based/wetted_area_total.py:765 -/
noncomputable def J_horizontaltail_wetted_area__horizontaltail_wetted_area_scaler (names_xmulth horizontaltail_area : ℝ) : ℝ :=
  names_xmulth * horizontaltail_area

/-- Partial of `verticaltail_wetted_area` with respect to `names_xmultv` as set by `TailWettedArea`, aviary/subsystems/geometry/flops_based/wetted_area_total.py:775 -/
noncomputable def J_verticaltail_wetted_area__names_xmultv (verticaltail_area verticaltail_wetted_area_scaler : ℝ) : ℝ :=
  verticaltail_wetted_area_scaler * verticaltail_area

/-- Partial of `verticaltail_wetted_area` with respect to `verticaltail_area` as set by `TailWettedArea`, aviary/subsystems/geometry/flops_based/wetted_area_total.py:777 -/
noncomputable def J_verticaltail_wetted_area__verticaltail_area (names_xmultv verticaltail_wetted_area_scaler : ℝ) : ℝ :=
  verticaltail_wetted_area_scaler * names_xmultv

/-- Partial of `verticaltail_wetted_area` with respect to `verticaltail_wetted_area_scaler` as set by `TailWettedArea`, aviary/subsystems/geometry/flops_based/wetted_area_total.py:779 -/
noncomputable def J_verticaltail_wetted_area__verticaltail_wetted_area_scaler (names_xmultv verticaltail_area : ℝ) : ℝ :=
  names_xmultv * verticaltail_area

theorem d_horizontaltail_wetted_area__names_xmulth (names_xmulth horizontaltail_area
    horizontaltail_wetted_area_scaler : ℝ)  :
    HasDerivAt (fun t => out_horizontaltail_wetted_area t horizontaltail_area horizontaltail_wetted_area_scaler) (J_horizontaltail_wetted_area__names_xmulth horizontaltail_area horizontaltail_wetted_area_scaler) names_xmulth := by
  simp only [out_horizontaltail_wetted_area, J_horizontaltail_wetted_area__names_xmulth, wetted_area]
  (apply hasDerivAt_of_eq; on_goal 1 => (repeat' comp_step))
  all_goals try comp_side
  all_goals try simp only [mul_zero, zero_mul, add_zero, zero_add, sub_zero, zero_sub, mul_one, one_mul]
  all_goals try push_cast
  all_goals comp_eq

theorem d_horizontaltail_wetted_area__horizontaltail_area (names_xmulth horizontaltail_area
    horizontaltail_wetted_area_scaler : ℝ)  :
    HasDerivAt (fun t => out_horizontaltail_wetted_area names_xmulth t horizontaltail_wetted_area_scaler) (J_horizontaltail_wetted_area__horizontaltail_area names_xmulth horizontaltail_wetted_area_scaler) horizontaltail_area := by
  simp only [out_horizontaltail_wetted_area, J_horizontaltail_wetted_area__horizontaltail_area, wetted_area]
  (apply hasDerivAt_of_eq; on_goal 1 => (repeat' comp_step))
  all_goals try comp_side
  all_goals try simp only [mul_zero, zero_mul, add_zero, zero_add, sub_zero, zero_sub, mul_one, one_mul]
  all_goals try push_cast
  all_goals comp_eq

theorem d_horizontaltail_wetted_area__horizontaltail_wetted_area_scaler (names_xmulth
    horizontaltail_area horizontaltail_wetted_area_scaler : ℝ)  :
    HasDerivAt (fun t => out_horizontaltail_wetted_area names_xmulth horizontaltail_area t) (J_horizontaltail_wetted_area__horizontaltail_wetted_area_scaler names_xmulth horizontaltail_area) horizontaltail_wetted_area_scaler := by
  simp only [out_horizontaltail_wetted_area, J_horizontaltail_wetted_area__horizontaltail_wetted_area_scaler, wetted_area]
  (apply hasDerivAt_of_eq; on_goal 1 => (repeat' comp_step))
  all_goals try comp_side
  all_goals try simp only [mul_zero, zero_mul, add_zero, zero_add, sub_zero, zero_sub, mul_one, one_mul]
  all_goals try push_cast
  all_goals comp_eq

theorem d_verticaltail_wetted_area__names_xmultv (names_xmultv verticaltail_area
    verticaltail_wetted_area_scaler : ℝ)  :
    HasDerivAt (fun t => out_verticaltail_wetted_area t verticaltail_area verticaltail_wetted_area_scaler) (J_verticaltail_wetted_area__names_xmultv verticaltail_area verticaltail_wetted_area_scaler) names_xmultv := by
  simp only [out_verticaltail_wetted_area, J_verticaltail_wetted_area__names_xmultv, wetted_area_2]
  (apply hasDerivAt_of_eq; on_goal 1 => (repeat' comp_step))
  all_goals try comp_side
  all_goals try simp only [mul_zero, zero_mul, add_zero, zero_add, sub_zero, zero_sub, mul_one, one_mul]
  all_goals try push_cast
  all_goals comp_eq

theorem d_verticaltail_wetted_area__verticaltail_area (names_xmultv verticaltail_area
    verticaltail_wetted_area_scaler : ℝ)  :
    HasDerivAt (fun t => out_verticaltail_wetted_area names_xmultv t verticaltail_wetted_area_scaler) (J_verticaltail_wetted_area__verticaltail_area names_xmultv verticaltail_wetted_area_scaler) verticaltail_area := by
  simp only [out_verticaltail_wetted_area, J_verticaltail_wetted_area__verticaltail_area, wetted_area_2]
  (apply hasDerivAt_of_eq; on_goal 1 => (repeat' comp_step))
  all_goals try comp_side
  all_goals try simp only [mul_zero, zero_mul, add_zero, zero_add, sub_zero, zero_sub, mul_one, one_mul]
  all_goals try push_cast
  all_goals comp_eq

theorem d_verticaltail_wetted_area__verticaltail_wetted_area_scaler (names_xmultv
    verticaltail_area verticaltail_wetted_area_scaler : ℝ)  :
    HasDerivAt (fun t => out_verticaltail_wetted_area names_xmultv verticaltail_area t) (J_verticaltail_wetted_area__verticaltail_wetted_area_scaler names_xmultv verticaltail_area) verticaltail_wetted_area_scaler := by
  simp only [out_verticaltail_wetted_area, J_verticaltail_wetted_area__verticaltail_wetted_area_scaler, wetted_area_2]
  (apply hasDerivAt_of_eq; on_goal 1 => (repeat' comp_step))
  all_goals try comp_side
  all_goals try simp only [mul_zero, zero_mul, add_zero, zero_add, sub_zero, zero_sub, mul_one, one_mul]
  all_goals try push_cast
  all_goals comp_eq

/-- Every partial derivative set by `TailWettedArea` is the derivative of its output. -/
theorem partials (names_xmulth horizontaltail_area horizontaltail_wetted_area_scaler names_xmultv
    verticaltail_area verticaltail_wetted_area_scaler : ℝ) :
    HasDerivAt (fun t => out_horizontaltail_wetted_area t horizontaltail_area
      horizontaltail_wetted_area_scaler) (J_horizontaltail_wetted_area__names_xmulth
      horizontaltail_area horizontaltail_wetted_area_scaler) names_xmulth ∧
    HasDerivAt (fun t => out_horizontaltail_wetted_area names_xmulth t
      horizontaltail_wetted_area_scaler) (J_horizontaltail_wetted_area__horizontaltail_area
      names_xmulth horizontaltail_wetted_area_scaler) horizontaltail_area ∧
    HasDerivAt (fun t => out_horizontaltail_wetted_area names_xmulth horizontaltail_area t)
      (J_horizontaltail_wetted_area__horizontaltail_wetted_area_scaler names_xmulth
      horizontaltail_area) horizontaltail_wetted_area_scaler ∧
    HasDerivAt (fun t => out_verticaltail_wetted_area t verticaltail_area
      verticaltail_wetted_area_scaler) (J_verticaltail_wetted_area__names_xmultv verticaltail_area
      verticaltail_wetted_area_scaler) names_xmultv ∧
    HasDerivAt (fun t => out_verticaltail_wetted_area names_xmultv t verticaltail_wetted_area_scaler)
      (J_verticaltail_wetted_area__verticaltail_area names_xmultv verticaltail_wetted_area_scaler)
      verticaltail_area ∧
    HasDerivAt (fun t => out_verticaltail_wetted_area names_xmultv verticaltail_area t)
      (J_verticaltail_wetted_area__verticaltail_wetted_area_scaler names_xmultv verticaltail_area)
      verticaltail_wetted_area_scaler :=
  ⟨d_horizontaltail_wetted_area__names_xmulth _ _ _,
    d_horizontaltail_wetted_area__horizontaltail_area _ _ _,
    d_horizontaltail_wetted_area__horizontaltail_wetted_area_scaler _ _ _,
    d_verticaltail_wetted_area__names_xmultv _ _ _, d_verticaltail_wetted_area__verticaltail_area
    _ _ _, d_verticaltail_wetted_area__verticaltail_wetted_area_scaler _ _ _⟩

end Verif.Comp.GeometryFlopsBasedWettedAreaTotal.TailWettedArea_wingspanefficiencyreduction

namespace Verif.Comp.GeometryFlopsBasedWettedAreaTotal.TailWettedArea_no_wingspanefficiencyreduction
open Real

/-- aviary/subsystems/geometry/flops_based/wetted_area_total.py:702 -/
noncomputable def wetted_area (names_xmulth horizontaltail_area horizontaltail_wetted_area_scaler : ℝ) : ℝ :=
  (horizontaltail_wetted_area_scaler * names_xmulth) * horizontaltail_area

/-- aviary/subsystems/geometry/flops_based/wetted_area_total.py:711 -/
noncomputable def wetted_area_2 (propulsion_total_num_fuselage_engines names_xmulth horizontaltail_area horizontaltail_wetted_area_scaler horizontaltail_vertical_tail_mount_location : ℝ) : ℝ :=
  (wetted_area names_xmulth horizontaltail_area horizontaltail_wetted_area_scaler) * (1 - (((37
    / 200) + (propulsion_total_num_fuselage_engines * (63 / 1000))) * (1 -
    horizontaltail_vertical_tail_mount_location)))

/-- aviary/subsystems/geometry/flops_based/wetted_area_total.py:722 -/
noncomputable def wetted_area_3 (names_xmultv verticaltail_area verticaltail_wetted_area_scaler : ℝ) : ℝ :=
  (verticaltail_wetted_area_scaler * names_xmultv) * verticaltail_area

/-- aviary/subsystems/geometry/flops_based/wetted_area_total.py:739 -/
noncomputable def fengines (propulsion_total_num_fuselage_engines : ℝ) : ℝ :=
  (37 / 200) + (propulsion_total_num_fuselage_engines * (63 / 1000))

/-- aviary/subsystems/geometry/flops_based/wetted_area_total.py:740 -/
noncomputable def fact (propulsion_total_num_fuselage_engines horizontaltail_vertical_tail_mount_location : ℝ) : ℝ :=
  1 - ((fengines propulsion_total_num_fuselage_engines) * (1 -
    horizontaltail_vertical_tail_mount_location))

/-- aviary/subsystems/geometry/flops_based/wetted_area_total.py:748 -/
noncomputable def deriv (propulsion_total_num_fuselage_engines names_xmulth horizontaltail_area horizontaltail_wetted_area_scaler : ℝ) : ℝ :=
  ((horizontaltail_wetted_area_scaler * names_xmulth) * horizontaltail_area) * (fengines
    propulsion_total_num_fuselage_engines)

/-- Output `horizontaltail_wetted_area` of `TailWettedArea.compute`, aviary/subsystems/geometry/flops_based/wetted_area_total.py:715 -/
noncomputable def out_horizontaltail_wetted_area (propulsion_total_num_fuselage_engines names_xmulth horizontaltail_area horizontaltail_wetted_area_scaler horizontaltail_vertical_tail_mount_location : ℝ) : ℝ :=
  wetted_area_2 propulsion_total_num_fuselage_engines names_xmulth horizontaltail_area
    horizontaltail_wetted_area_scaler horizontaltail_vertical_tail_mount_location

/-- Output `verticaltail_wetted_area` of `TailWettedArea.compute`, aviary/subsystems/geometry/flops_based/wetted_area_total.py:724 -/
noncomputable def out_verticaltail_wetted_area (names_xmultv verticaltail_area verticaltail_wetted_area_scaler : ℝ) : ℝ :=
  wetted_area_3 names_xmultv verticaltail_area verticaltail_wetted_area_scaler

/-- Partial of `horizontaltail_wetted_area` with respect to `names_xmulth` as set by `TailWettedArea`, aviary/subsystems/geometry/flops_based/wetted_area_total.py:742 -/
noncomputable def J_horizontaltail_wetted_area__names_xmulth (propulsion_total_num_fuselage_engines horizontaltail_area horizontaltail_wetted_area_scaler horizontaltail_vertical_tail_mount_location : ℝ) : ℝ :=
  (horizontaltail_wetted_area_scaler * horizontaltail_area) * (fact
    propulsion_total_num_fuselage_engines horizontaltail_vertical_tail_mount_location)

/-- Partial of `horizontaltail_wetted_area` with respect to `horizontaltail_area` as set by `TailWettedArea`, aviary/subsystems/geometry/flops_based/wetted_area_total.py:744 -/
noncomputable def J_horizontaltail_wetted_area__horizontaltail_area (propulsion_total_num_fuselage_engines names_xmulth horizontaltail_wetted_area_scaler horizontaltail_vertical_tail_mount_location : ℝ) : ℝ :=
  (horizontaltail_wetted_area_scaler * names_xmulth) * (fact
    propulsion_total_num_fuselage_engines horizontaltail_vertical_tail_mount_location)

/-- Partial of `horizontaltail_wetted_area` with respect to `horizontaltail_vertical_tail_mount_location` as set by `TailWettedArea`, aviary/subsystems/geometry/flops_based/wetted_area_total.py:750 -/
noncomputable def J_horizontaltail_wetted_area__horizontaltail_vertical_tail_mount_location (propulsion_total_num_fuselage_engines names_xmulth horizontaltail_area horizontaltail_wetted_area_scaler : ℝ) : ℝ :=
  deriv propulsion_total_num_fuselage_engines names_xmulth horizontaltail_area
    horizontaltail_wetted_area_scaler

/-- Partial of `horizontaltail_wetted_area` with respect to `horizontaltail_wetted_area_scaler` as set by `TailWettedArea`, aviary/subsystems/geometry/flops_based/wetted_area_total.py:755 -/
noncomputable def J_horizontaltail_wetted_area__horizontaltail_wetted_area_scaler (propulsion_total_num_fuselage_engines names_xmulth horizontaltail_area horizontaltail_vertical_tail_mount_location : ℝ) : ℝ :=
  (names_xmulth * horizontaltail_area) * (fact propulsion_total_num_fuselage_engines
    horizontaltail_vertical_tail_mount_location)

/-- Partial of `verticaltail_wetted_area` with respect to `names_xmultv` as set by `TailWettedArea`, aviary/subsystems/geometry/flops_based/wetted_area_total.py:775 -/
noncomputable def J_verticaltail_wetted_area__names_xmultv (verticaltail_area verticaltail_wetted_area_scaler : ℝ) : ℝ :=
  verticaltail_wetted_area_scaler * verticaltail_area

/-- Partial of `verticaltail_wetted_area` with respect to `verticaltail_area` as set by `TailWettedArea`, aviary/subsystems/geometry/flops_based/wetted_area_total.py:777 -/
noncomputable def J_verticaltail_wetted_area__verticaltail_area (names_xmultv verticaltail_wetted_area_scaler : ℝ) : ℝ :=
  verticaltail_wetted_area_scaler * names_xmultv

/-- Partial of `verticaltail_wetted_area` with respect to `verticaltail_wetted_area_scaler` as set by `TailWettedArea`, aviary/subsystems/geometry/flops_based/wetted_area_total.py:779 -/
noncomputable def J_verticaltail_wetted_area__verticaltail_wetted_area_scaler (names_xmultv verticaltail_area : ℝ) : ℝ :=
  names_xmultv * verticaltail_area

theorem d_horizontaltail_wetted_area__names_xmulth (propulsion_total_num_fuselage_engines
    names_xmulth horizontaltail_area horizontaltail_wetted_area_scaler
    horizontaltail_vertical_tail_mount_location : ℝ)  :
    HasDerivAt (fun t => out_horizontaltail_wetted_area propulsion_total_num_fuselage_engines t horizontaltail_area horizontaltail_wetted_area_scaler horizontaltail_vertical_tail_mount_location) (J_horizontaltail_wetted_area__names_xmulth propulsion_total_num_fuselage_engines horizontaltail_area horizontaltail_wetted_area_scaler horizontaltail_vertical_tail_mount_location) names_xmulth := by
  simp only [out_horizontaltail_wetted_area, J_horizontaltail_wetted_area__names_xmulth, fact, fengines, wetted_area_2, wetted_area]
  (apply hasDerivAt_of_eq; on_goal 1 => (repeat' comp_step))
  all_goals try comp_side
  all_goals try simp only [mul_zero, zero_mul, add_zero, zero_add, sub_zero, zero_sub, mul_one, one_mul]
  all_goals try push_cast
  all_goals comp_eq

theorem d_horizontaltail_wetted_area__horizontaltail_area (propulsion_total_num_fuselage_engines
    names_xmulth horizontaltail_area horizontaltail_wetted_area_scaler
    horizontaltail_vertical_tail_mount_location : ℝ)  :
    HasDerivAt (fun t => out_horizontaltail_wetted_area propulsion_total_num_fuselage_engines names_xmulth t horizontaltail_wetted_area_scaler horizontaltail_vertical_tail_mount_location) (J_horizontaltail_wetted_area__horizontaltail_area propulsion_total_num_fuselage_engines names_xmulth horizontaltail_wetted_area_scaler horizontaltail_vertical_tail_mount_location) horizontaltail_area := by
  simp only [out_horizontaltail_wetted_area, J_horizontaltail_wetted_area__horizontaltail_area, fact, fengines, wetted_area_2, wetted_area]
  (apply hasDerivAt_of_eq; on_goal 1 => (repeat' comp_step))
  all_goals try comp_side
  all_goals try simp only [mul_zero, zero_mul, add_zero, zero_add, sub_zero, zero_sub, mul_one, one_mul]
  all_goals try push_cast
  all_goals comp_eq

theorem d_horizontaltail_wetted_area__horizontaltail_wetted_area_scaler
    (propulsion_total_num_fuselage_engines names_xmulth horizontaltail_area
    horizontaltail_wetted_area_scaler horizontaltail_vertical_tail_mount_location : ℝ)  :
    HasDerivAt (fun t => out_horizontaltail_wetted_area propulsion_total_num_fuselage_engines names_xmulth horizontaltail_area t horizontaltail_vertical_tail_mount_location) (J_horizontaltail_wetted_area__horizontaltail_wetted_area_scaler propulsion_total_num_fuselage_engines names_xmulth horizontaltail_area horizontaltail_vertical_tail_mount_location) horizontaltail_wetted_area_scaler := by
  simp only [out_horizontaltail_wetted_area, J_horizontaltail_wetted_area__horizontaltail_wetted_area_scaler, fact, fengines, wetted_area_2, wetted_area]
  (apply hasDerivAt_of_eq; on_goal 1 => (repeat' comp_step))
  all_goals try comp_side
  all_goals try simp only [mul_zero, zero_mul, add_zero, zero_add, sub_zero, zero_sub, mul_one, one_mul]
  all_goals try push_cast
  all_goals comp_eq

theorem d_horizontaltail_wetted_area__horizontaltail_vertical_tail_mount_location
    (propulsion_total_num_fuselage_engines names_xmulth horizontaltail_area
    horizontaltail_wetted_area_scaler horizontaltail_vertical_tail_mount_location : ℝ)  :
    HasDerivAt (fun t => out_horizontaltail_wetted_area propulsion_total_num_fuselage_engines names_xmulth horizontaltail_area horizontaltail_wetted_area_scaler t) (J_horizontaltail_wetted_area__horizontaltail_vertical_tail_mount_location propulsion_total_num_fuselage_engines names_xmulth horizontaltail_area horizontaltail_wetted_area_scaler) horizontaltail_vertical_tail_mount_location := by
  simp only [out_horizontaltail_wetted_area, J_horizontaltail_wetted_area__horizontaltail_vertical_tail_mount_location, deriv, fengines, wetted_area_2, wetted_area]
  (apply hasDerivAt_of_eq; on_goal 1 => (repeat' comp_step))
  all_goals try comp_side
  all_goals try simp only [mul_zero, zero_mul, add_zero, zero_add, sub_zero, zero_sub, mul_one, one_mul]
  all_goals try push_cast
  all_goals comp_eq

theorem d_verticaltail_wetted_area__names_xmultv (names_xmultv verticaltail_area
    verticaltail_wetted_area_scaler : ℝ)  :
    HasDerivAt (fun t => out_verticaltail_wetted_area t verticaltail_area verticaltail_wetted_area_scaler) (J_verticaltail_wetted_area__names_xmultv verticaltail_area verticaltail_wetted_area_scaler) names_xmultv := by
  simp only [out_verticaltail_wetted_area, J_verticaltail_wetted_area__names_xmultv, wetted_area_3]
  (apply hasDerivAt_of_eq; on_goal 1 => (repeat' comp_step))
  all_goals try comp_side
  all_goals try simp only [mul_zero, zero_mul, add_zero, zero_add, sub_zero, zero_sub, mul_one, one_mul]
  all_goals try push_cast
  all_goals comp_eq

theorem d_verticaltail_wetted_area__verticaltail_area (names_xmultv verticaltail_area
    verticaltail_wetted_area_scaler : ℝ)  :
    HasDerivAt (fun t => out_verticaltail_wetted_area names_xmultv t verticaltail_wetted_area_scaler) (J_verticaltail_wetted_area__verticaltail_area names_xmultv verticaltail_wetted_area_scaler) verticaltail_area := by
  simp only [out_verticaltail_wetted_area, J_verticaltail_wetted_area__verticaltail_area, wetted_area_3]
  (apply hasDerivAt_of_eq; on_goal 1 => (repeat' comp_step))
  all_goals try comp_side
  all_goals try simp only [mul_zero, zero_mul, add_zero, zero_add, sub_zero, zero_sub, mul_one, one_mul]
  all_goals try push_cast
  all_goals comp_eq

theorem d_verticaltail_wetted_area__verticaltail_wetted_area_scaler (names_xmultv
    verticaltail_area verticaltail_wetted_area_scaler : ℝ)  :
    HasDerivAt (fun t => out_verticaltail_wetted_area names_xmultv verticaltail_area t) (J_verticaltail_wetted_area__verticaltail_wetted_area_scaler names_xmultv verticaltail_area) verticaltail_wetted_area_scaler := by
  simp only [out_verticaltail_wetted_area, J_verticaltail_wetted_area__verticaltail_wetted_area_scaler, wetted_area_3]
  (apply hasDerivAt_of_eq; on_goal 1 => (repeat' comp_step))
  all_goals try comp_side
  all_goals try simp only [mul_zero, zero_mul, add_zero, zero_add, sub_zero, zero_sub, mul_one, one_mul]
  all_goals try push_cast
  all_goals comp_eq

/-- Every partial derivative set by `TailWettedArea` is the derivative of its output. -/
theorem partials (propulsion_total_num_fuselage_engines names_xmulth horizontaltail_area
    horizontaltail_wetted_area_scaler horizontaltail_vertical_tail_mount_location names_xmultv
    verticaltail_area verticaltail_wetted_area_scaler : ℝ) :
    HasDerivAt (fun t => out_horizontaltail_wetted_area propulsion_total_num_fuselage_engines t
      horizontaltail_area horizontaltail_wetted_area_scaler
      horizontaltail_vertical_tail_mount_location) (J_horizontaltail_wetted_area__names_xmulth
      propulsion_total_num_fuselage_engines horizontaltail_area horizontaltail_wetted_area_scaler
      horizontaltail_vertical_tail_mount_location) names_xmulth ∧
    HasDerivAt (fun t => out_horizontaltail_wetted_area propulsion_total_num_fuselage_engines
      names_xmulth t horizontaltail_wetted_area_scaler
      horizontaltail_vertical_tail_mount_location)
      (J_horizontaltail_wetted_area__horizontaltail_area propulsion_total_num_fuselage_engines
      names_xmulth horizontaltail_wetted_area_scaler horizontaltail_vertical_tail_mount_location)
      horizontaltail_area ∧
    HasDerivAt (fun t => out_horizontaltail_wetted_area propulsion_total_num_fuselage_engines
      names_xmulth horizontaltail_area t horizontaltail_vertical_tail_mount_location)
      (J_horizontaltail_wetted_area__horizontaltail_wetted_area_scaler
      propulsion_total_num_fuselage_engines names_xmulth horizontaltail_area
      horizontaltail_vertical_tail_mount_location) horizontaltail_wetted_area_scaler ∧
    HasDerivAt (fun t => out_horizontaltail_wetted_area propulsion_total_num_fuselage_engines
      names_xmulth horizontaltail_area horizontaltail_wetted_area_scaler t)
      (J_horizontaltail_wetted_area__horizontaltail_vertical_tail_mount_location
      propulsion_total_num_fuselage_engines names_xmulth horizontaltail_area
      horizontaltail_wetted_area_scaler) horizontaltail_vertical_tail_mount_location ∧
    HasDerivAt (fun t => out_verticaltail_wetted_area t verticaltail_area
      verticaltail_wetted_area_scaler) (J_verticaltail_wetted_area__names_xmultv verticaltail_area
      verticaltail_wetted_area_scaler) names_xmultv ∧
    HasDerivAt (fun t => out_verticaltail_wetted_area names_xmultv t verticaltail_wetted_area_scaler)
      (J_verticaltail_wetted_area__verticaltail_area names_xmultv verticaltail_wetted_area_scaler)
      verticaltail_area ∧
    HasDerivAt (fun t => out_verticaltail_wetted_area names_xmultv verticaltail_area t)
      (J_verticaltail_wetted_area__verticaltail_wetted_area_scaler names_xmultv verticaltail_area)
      verticaltail_wetted_area_scaler :=
  ⟨d_horizontaltail_wetted_area__names_xmulth _ _ _ _ _,
    d_horizontaltail_wetted_area__horizontaltail_area _ _ _ _ _,
    d_horizontaltail_wetted_area__horizontaltail_wetted_area_scaler _ _ _ _ _,
    d_horizontaltail_wetted_area__horizontaltail_vertical_tail_mount_location _ _ _ _ _,
    d_verticaltail_wetted_area__names_xmultv _ _ _, d_verticaltail_wetted_area__verticaltail_area
    _ _ _, d_verticaltail_wetted_area__verticaltail_wetted_area_scaler _ _ _⟩

end Verif.Comp.GeometryFlopsBasedWettedAreaTotal.TailWettedArea_no_wingspanefficiencyreduction

namespace Verif.Comp.GeometryFlopsBasedWettedAreaTotal.WingWettedArea
open Real

/-- aviary/subsystems/geometry/flops_based/wetted_area_total.py:519 -/
noncomputable def wetted_area (fuselage_num_fuselages wing_area names_croot names_crootb wing_wetted_area_scaler names_xdx names_xmult : ℝ) : ℝ :=
  (wing_wetted_area_scaler * names_xmult) * (wing_area - (((fuselage_num_fuselages * names_xdx)
    / 2) * (names_croot + names_crootb)))

/-- Output `wing_wetted_area` of `WingWettedArea.compute`, aviary/subsystems/geometry/flops_based/wetted_area_total.py:521 -/
noncomputable def out_wing_wetted_area (fuselage_num_fuselages wing_area names_croot names_crootb wing_wetted_area_scaler names_xdx names_xmult : ℝ) : ℝ :=
  wetted_area fuselage_num_fuselages wing_area names_croot names_crootb wing_wetted_area_scaler
    names_xdx names_xmult

/-- Partial of `wing_wetted_area` with respect to `wing_area` as set by `WingWettedArea`, aviary/subsystems/geometry/flops_based/wetted_area_total.py:533 -/
noncomputable def J_wing_wetted_area__wing_area (wing_wetted_area_scaler names_xmult : ℝ) : ℝ :=
  wing_wetted_area_scaler * names_xmult

/-- Partial of `wing_wetted_area` with respect to `wing_wetted_area_scaler` as set by `WingWettedArea`, aviary/subsystems/geometry/flops_based/wetted_area_total.py:535 -/
noncomputable def J_wing_wetted_area__wing_wetted_area_scaler (fuselage_num_fuselages wing_area names_croot names_crootb names_xdx names_xmult : ℝ) : ℝ :=
  names_xmult * (wing_area - (((fuselage_num_fuselages * names_xdx) / 2) * (names_croot +
    names_crootb)))

/-- Partial of `wing_wetted_area` with respect to `names_croot` as set by `WingWettedArea`, aviary/subsystems/geometry/flops_based/wetted_area_total.py:539 -/
noncomputable def J_wing_wetted_area__names_croot (fuselage_num_fuselages wing_wetted_area_scaler names_xdx names_xmult : ℝ) : ℝ :=
  (((-(1 / 2)) * wing_wetted_area_scaler) * names_xmult) * (fuselage_num_fuselages * names_xdx)

/-- Partial of `wing_wetted_area` with respect to `names_crootb` as set by `WingWettedArea`, aviary/subsystems/geometry/flops_based/wetted_area_total.py:541 -/
noncomputable def J_wing_wetted_area__names_crootb (fuselage_num_fuselages wing_wetted_area_scaler names_xdx names_xmult : ℝ) : ℝ :=
  (((-(1 / 2)) * wing_wetted_area_scaler) * names_xmult) * (fuselage_num_fuselages * names_xdx)

/-- Partial of `wing_wetted_area` with respect to `names_xdx` as set by `WingWettedArea`, aviary/subsystems/geometry/flops_based/wetted_area_total.py:543 -/
noncomputable def J_wing_wetted_area__names_xdx (fuselage_num_fuselages names_croot names_crootb wing_wetted_area_scaler names_xmult : ℝ) : ℝ :=
  ((((-(1 / 2)) * wing_wetted_area_scaler) * names_xmult) * fuselage_num_fuselages) *
    (names_croot + names_crootb)

/-- Partial of `wing_wetted_area` with respect to `names_xmult` as set by `WingWettedArea`, aviary/subsystems/geometry/flops_based/wetted_area_total.py:547 -/
noncomputable def J_wing_wetted_area__names_xmult (fuselage_num_fuselages wing_area names_croot names_crootb wing_wetted_area_scaler names_xdx : ℝ) : ℝ :=
  wing_wetted_area_scaler * (wing_area - (((1 / 2) * (fuselage_num_fuselages * names_xdx)) *
    (names_croot + names_crootb)))

theorem d_wing_wetted_area__wing_area (fuselage_num_fuselages wing_area names_croot names_crootb
    wing_wetted_area_scaler names_xdx names_xmult : ℝ)  :
    HasDerivAt (fun t => out_wing_wetted_area fuselage_num_fuselages t names_croot names_crootb wing_wetted_area_scaler names_xdx names_xmult) (J_wing_wetted_area__wing_area wing_wetted_area_scaler names_xmult) wing_area := by
  simp only [out_wing_wetted_area, J_wing_wetted_area__wing_area, wetted_area]
  (apply hasDerivAt_of_eq; on_goal 1 => (repeat' comp_step))
  all_goals try comp_side
  all_goals try simp only [mul_zero, zero_mul, add_zero, zero_add, sub_zero, zero_sub, mul_one, one_mul]
  all_goals try push_cast
  all_goals comp_eq

theorem d_wing_wetted_area__names_croot (fuselage_num_fuselages wing_area names_croot names_crootb
    wing_wetted_area_scaler names_xdx names_xmult : ℝ)  :
    HasDerivAt (fun t => out_wing_wetted_area fuselage_num_fuselages wing_area t names_crootb wing_wetted_area_scaler names_xdx names_xmult) (J_wing_wetted_area__names_croot fuselage_num_fuselages wing_wetted_area_scaler names_xdx names_xmult) names_croot := by
  simp only [out_wing_wetted_area, J_wing_wetted_area__names_croot, wetted_area]
  (apply hasDerivAt_of_eq; on_goal 1 => (repeat' comp_step))
  all_goals try comp_side
  all_goals try simp only [mul_zero, zero_mul, add_zero, zero_add, sub_zero, zero_sub, mul_one, one_mul]
  all_goals try push_cast
  all_goals comp_eq

theorem d_wing_wetted_area__names_crootb (fuselage_num_fuselages wing_area names_croot
    names_crootb wing_wetted_area_scaler names_xdx names_xmult : ℝ)  :
    HasDerivAt (fun t => out_wing_wetted_area fuselage_num_fuselages wing_area names_croot t wing_wetted_area_scaler names_xdx names_xmult) (J_wing_wetted_area__names_crootb fuselage_num_fuselages wing_wetted_area_scaler names_xdx names_xmult) names_crootb := by
  simp only [out_wing_wetted_area, J_wing_wetted_area__names_crootb, wetted_area]
  (apply hasDerivAt_of_eq; on_goal 1 => (repeat' comp_step))
  all_goals try comp_side
  all_goals try simp only [mul_zero, zero_mul, add_zero, zero_add, sub_zero, zero_sub, mul_one, one_mul]
  all_goals try push_cast
  all_goals comp_eq

theorem d_wing_wetted_area__wing_wetted_area_scaler (fuselage_num_fuselages wing_area names_croot
    names_crootb wing_wetted_area_scaler names_xdx names_xmult : ℝ)  :
    HasDerivAt (fun t => out_wing_wetted_area fuselage_num_fuselages wing_area names_croot names_crootb t names_xdx names_xmult) (J_wing_wetted_area__wing_wetted_area_scaler fuselage_num_fuselages wing_area names_croot names_crootb names_xdx names_xmult) wing_wetted_area_scaler := by
  simp only [out_wing_wetted_area, J_wing_wetted_area__wing_wetted_area_scaler, wetted_area]
  (apply hasDerivAt_of_eq; on_goal 1 => (repeat' comp_step))
  all_goals try comp_side
  all_goals try simp only [mul_zero, zero_mul, add_zero, zero_add, sub_zero, zero_sub, mul_one, one_mul]
  all_goals try push_cast
  all_goals comp_eq

theorem d_wing_wetted_area__names_xdx (fuselage_num_fuselages wing_area names_croot names_crootb
    wing_wetted_area_scaler names_xdx names_xmult : ℝ)  :
    HasDerivAt (fun t => out_wing_wetted_area fuselage_num_fuselages wing_area names_croot names_crootb wing_wetted_area_scaler t names_xmult) (J_wing_wetted_area__names_xdx fuselage_num_fuselages names_croot names_crootb wing_wetted_area_scaler names_xmult) names_xdx := by
  simp only [out_wing_wetted_area, J_wing_wetted_area__names_xdx, wetted_area]
  (apply hasDerivAt_of_eq; on_goal 1 => (repeat' comp_step))
  all_goals try comp_side
  all_goals try simp only [mul_zero, zero_mul, add_zero, zero_add, sub_zero, zero_sub, mul_one, one_mul]
  all_goals try push_cast
  all_goals comp_eq

theorem d_wing_wetted_area__names_xmult (fuselage_num_fuselages wing_area names_croot names_crootb
    wing_wetted_area_scaler names_xdx names_xmult : ℝ)  :
    HasDerivAt (fun t => out_wing_wetted_area fuselage_num_fuselages wing_area names_croot names_crootb wing_wetted_area_scaler names_xdx t) (J_wing_wetted_area__names_xmult fuselage_num_fuselages wing_area names_croot names_crootb wing_wetted_area_scaler names_xdx) names_xmult := by
  simp only [out_wing_wetted_area, J_wing_wetted_area__names_xmult, wetted_area]
  (apply hasDerivAt_of_eq; on_goal 1 => (repeat' comp_step))
  all_goals try comp_side
  all_goals try simp only [mul_zero, zero_mul, add_zero, zero_add, sub_zero, zero_sub, mul_one, one_mul]
  all_goals try push_cast
  all_goals comp_eq

/-- Every partial derivative set by `WingWettedArea` is the derivative of its output. -/
theorem partials (fuselage_num_fuselages wing_area names_croot names_crootb
    wing_wetted_area_scaler names_xdx names_xmult : ℝ) :
    HasDerivAt (fun t => out_wing_wetted_area fuselage_num_fuselages t names_croot names_crootb
      wing_wetted_area_scaler names_xdx names_xmult) (J_wing_wetted_area__wing_area
      wing_wetted_area_scaler names_xmult) wing_area ∧
    HasDerivAt (fun t => out_wing_wetted_area fuselage_num_fuselages wing_area t names_crootb
      wing_wetted_area_scaler names_xdx names_xmult) (J_wing_wetted_area__names_croot
      fuselage_num_fuselages wing_wetted_area_scaler names_xdx names_xmult) names_croot ∧
    HasDerivAt (fun t => out_wing_wetted_area fuselage_num_fuselages wing_area names_croot t
      wing_wetted_area_scaler names_xdx names_xmult) (J_wing_wetted_area__names_crootb
      fuselage_num_fuselages wing_wetted_area_scaler names_xdx names_xmult) names_crootb ∧
    HasDerivAt (fun t => out_wing_wetted_area fuselage_num_fuselages wing_area names_croot
      names_crootb t names_xdx names_xmult) (J_wing_wetted_area__wing_wetted_area_scaler
      fuselage_num_fuselages wing_area names_croot names_crootb names_xdx names_xmult)
      wing_wetted_area_scaler ∧
    HasDerivAt (fun t => out_wing_wetted_area fuselage_num_fuselages wing_area names_croot
      names_crootb wing_wetted_area_scaler t names_xmult) (J_wing_wetted_area__names_xdx
      fuselage_num_fuselages names_croot names_crootb wing_wetted_area_scaler names_xmult)
      names_xdx ∧
    HasDerivAt (fun t => out_wing_wetted_area fuselage_num_fuselages wing_area names_croot
      names_crootb wing_wetted_area_scaler names_xdx t) (J_wing_wetted_area__names_xmult
      fuselage_num_fuselages wing_area names_croot names_crootb wing_wetted_area_scaler names_xdx)
      names_xmult :=
  ⟨d_wing_wetted_area__wing_area _ _ _ _ _ _ _, d_wing_wetted_area__names_croot _ _ _ _ _ _ _,
    d_wing_wetted_area__names_crootb _ _ _ _ _ _ _, d_wing_wetted_area__wing_wetted_area_scaler _
    _ _ _ _ _ _, d_wing_wetted_area__names_xdx _ _ _ _ _ _ _, d_wing_wetted_area__names_xmult _ _
    _ _ _ _ _⟩

end Verif.Comp.GeometryFlopsBasedWettedAreaTotal.WingWettedArea

