import Verif.Lemmas.CompDeriv

/-! # Partial derivatives of the components of `aviary/subsystems/geometry/gasp_based/empennage.py`

One node of a vector component is modelled over the real numbers.  Each option that selects a
branch is fixed, one namespace per choice.  `out_x` is the output `x`, `J_x__y` the entry that
`compute_partials` (or `declare_partials` with `val`) assigns, `d_x__y` the proof that the entry is
the derivative.  Inputs an output does not take as argument have no influence on it. -/

set_option linter.all false

namespace Verif.Comp.GeometryGaspBasedEmpennage.TailVolCoef_otherorientation
open Real

/-- aviary/subsystems/geometry/gasp_based/empennage.py:64 -/
noncomputable def ch1 (horizontaltail_vertical_tail_mount_location : ℝ) : ℝ :=
  (43 / 100) - ((19 / 50) * horizontaltail_vertical_tail_mount_location)

/-- Output `horizontaltail_volume_coefficient` of `TailVolCoef.compute`, aviary/subsystems/geometry/gasp_based/empennage.py:65 -/
noncomputable def out_horizontaltail_volume_coefficient (horizontaltail_vertical_tail_mount_location fuselage_length fuselage_avg_diameter wing_area wing_average_chord : ℝ) : ℝ :=
  ((((17 / 20) * fuselage_length) * (fuselage_avg_diameter ^ 2)) / (wing_area *
    wing_average_chord)) + (ch1 horizontaltail_vertical_tail_mount_location)

/-- Partial of `horizontaltail_volume_coefficient` with respect to `horizontaltail_vertical_tail_mount_location` as set by `TailVolCoef`, aviary/subsystems/geometry/gasp_based/empennage.py:73 -/
noncomputable def J_horizontaltail_volume_coefficient__horizontaltail_vertical_tail_mount_location : ℝ :=
  -(19 / 50)

/-- Partial of `horizontaltail_volume_coefficient` with respect to `fuselage_length` as set by `TailVolCoef`, aviary/subsystems/geometry/gasp_based/empennage.py:74 -/
noncomputable def J_horizontaltail_volume_coefficient__fuselage_length (fuselage_avg_diameter wing_area wing_average_chord : ℝ) : ℝ :=
  ((17 / 20) * (fuselage_avg_diameter ^ 2)) / (wing_area * wing_average_chord)

/-- Partial of `horizontaltail_volume_coefficient` with respect to `fuselage_avg_diameter` as set by `TailVolCoef`, aviary/subsystems/geometry/gasp_based/empennage.py:75 -/
noncomputable def J_horizontaltail_volume_coefficient__fuselage_avg_diameter (fuselage_length fuselage_avg_diameter wing_area wing_average_chord : ℝ) : ℝ :=
  (((17 / 10) * fuselage_length) * fuselage_avg_diameter) / (wing_area * wing_average_chord)

/-- Partial of `horizontaltail_volume_coefficient` with respect to `wing_area` as set by `TailVolCoef`, aviary/subsystems/geometry/gasp_based/empennage.py:78 -/
noncomputable def J_horizontaltail_volume_coefficient__wing_area (fuselage_length fuselage_avg_diameter wing_area wing_average_chord : ℝ) : ℝ :=
  (((-(17 / 20)) * fuselage_length) * (fuselage_avg_diameter ^ 2)) / ((wing_area ^ 2) *
    wing_average_chord)

/-- Partial of `horizontaltail_volume_coefficient` with respect to `wing_average_chord` as set by `TailVolCoef`, aviary/subsystems/geometry/gasp_based/empennage.py:79 -/
noncomputable def J_horizontaltail_volume_coefficient__wing_average_chord (fuselage_length fuselage_avg_diameter wing_area wing_average_chord : ℝ) : ℝ :=
  (((-(17 / 20)) * fuselage_length) * (fuselage_avg_diameter ^ 2)) / (wing_area *
    (wing_average_chord ^ 2))

theorem d_horizontaltail_volume_coefficient__horizontaltail_vertical_tail_mount_location
    (horizontaltail_vertical_tail_mount_location fuselage_length fuselage_avg_diameter wing_area
    wing_average_chord : ℝ) (h0 : 0 < wing_area) (h1 : 0 < wing_average_chord) :
    HasDerivAt (fun t => out_horizontaltail_volume_coefficient t fuselage_length fuselage_avg_diameter wing_area wing_average_chord) (J_horizontaltail_volume_coefficient__horizontaltail_vertical_tail_mount_location) horizontaltail_vertical_tail_mount_location := by
  simp only [out_horizontaltail_volume_coefficient, J_horizontaltail_volume_coefficient__horizontaltail_vertical_tail_mount_location, ch1]
  (apply hasDerivAt_of_eq; on_goal 1 => (repeat' comp_step))
  all_goals try comp_side
  all_goals try simp only [mul_zero, zero_mul, add_zero, zero_add, sub_zero, zero_sub, mul_one, one_mul]
  all_goals try push_cast
  all_goals comp_eq

theorem d_horizontaltail_volume_coefficient__fuselage_length
    (horizontaltail_vertical_tail_mount_location fuselage_length fuselage_avg_diameter wing_area
    wing_average_chord : ℝ) (h0 : 0 < wing_area) (h1 : 0 < wing_average_chord) :
    HasDerivAt (fun t => out_horizontaltail_volume_coefficient horizontaltail_vertical_tail_mount_location t fuselage_avg_diameter wing_area wing_average_chord) (J_horizontaltail_volume_coefficient__fuselage_length fuselage_avg_diameter wing_area wing_average_chord) fuselage_length := by
  simp only [out_horizontaltail_volume_coefficient, J_horizontaltail_volume_coefficient__fuselage_length, ch1]
  (apply hasDerivAt_of_eq; on_goal 1 => (repeat' comp_step))
  all_goals try comp_side
  all_goals try simp only [mul_zero, zero_mul, add_zero, zero_add, sub_zero, zero_sub, mul_one, one_mul]
  all_goals try push_cast
  all_goals comp_eq

theorem d_horizontaltail_volume_coefficient__fuselage_avg_diameter
    (horizontaltail_vertical_tail_mount_location fuselage_length fuselage_avg_diameter wing_area
    wing_average_chord : ℝ) (h0 : 0 < wing_area) (h1 : 0 < wing_average_chord) :
    HasDerivAt (fun t => out_horizontaltail_volume_coefficient horizontaltail_vertical_tail_mount_location fuselage_length t wing_area wing_average_chord) (J_horizontaltail_volume_coefficient__fuselage_avg_diameter fuselage_length fuselage_avg_diameter wing_area wing_average_chord) fuselage_avg_diameter := by
  simp only [out_horizontaltail_volume_coefficient, J_horizontaltail_volume_coefficient__fuselage_avg_diameter, ch1]
  (apply hasDerivAt_of_eq; on_goal 1 => (repeat' comp_step))
  all_goals try comp_side
  all_goals try simp only [mul_zero, zero_mul, add_zero, zero_add, sub_zero, zero_sub, mul_one, one_mul]
  all_goals try push_cast
  all_goals comp_eq

theorem d_horizontaltail_volume_coefficient__wing_area
    (horizontaltail_vertical_tail_mount_location fuselage_length fuselage_avg_diameter wing_area
    wing_average_chord : ℝ) (h0 : 0 < wing_area) (h1 : 0 < wing_average_chord) :
    HasDerivAt (fun t => out_horizontaltail_volume_coefficient horizontaltail_vertical_tail_mount_location fuselage_length fuselage_avg_diameter t wing_average_chord) (J_horizontaltail_volume_coefficient__wing_area fuselage_length fuselage_avg_diameter wing_area wing_average_chord) wing_area := by
  simp only [out_horizontaltail_volume_coefficient, J_horizontaltail_volume_coefficient__wing_area, ch1]
  (apply hasDerivAt_of_eq; on_goal 1 => (repeat' comp_step))
  all_goals try comp_side
  all_goals try simp only [mul_zero, zero_mul, add_zero, zero_add, sub_zero, zero_sub, mul_one, one_mul]
  all_goals try push_cast
  all_goals comp_eq

theorem d_horizontaltail_volume_coefficient__wing_average_chord
    (horizontaltail_vertical_tail_mount_location fuselage_length fuselage_avg_diameter wing_area
    wing_average_chord : ℝ) (h0 : 0 < wing_area) (h1 : 0 < wing_average_chord) :
    HasDerivAt (fun t => out_horizontaltail_volume_coefficient horizontaltail_vertical_tail_mount_location fuselage_length fuselage_avg_diameter wing_area t) (J_horizontaltail_volume_coefficient__wing_average_chord fuselage_length fuselage_avg_diameter wing_area wing_average_chord) wing_average_chord := by
  simp only [out_horizontaltail_volume_coefficient, J_horizontaltail_volume_coefficient__wing_average_chord, ch1]
  (apply hasDerivAt_of_eq; on_goal 1 => (repeat' comp_step))
  all_goals try comp_side
  all_goals try simp only [mul_zero, zero_mul, add_zero, zero_add, sub_zero, zero_sub, mul_one, one_mul]
  all_goals try push_cast
  all_goals comp_eq

/-- Every partial derivative set by `TailVolCoef` is the derivative of its output. -/
theorem partials (horizontaltail_vertical_tail_mount_location fuselage_length
    fuselage_avg_diameter wing_area wing_average_chord : ℝ) (h0 : 0 < wing_area) (h1 : 0 <
    wing_average_chord) :
    HasDerivAt (fun t => out_horizontaltail_volume_coefficient t fuselage_length fuselage_avg_diameter
      wing_area wing_average_chord)
      (J_horizontaltail_volume_coefficient__horizontaltail_vertical_tail_mount_location)
      horizontaltail_vertical_tail_mount_location ∧
    HasDerivAt (fun t => out_horizontaltail_volume_coefficient
      horizontaltail_vertical_tail_mount_location t fuselage_avg_diameter wing_area
      wing_average_chord) (J_horizontaltail_volume_coefficient__fuselage_length
      fuselage_avg_diameter wing_area wing_average_chord) fuselage_length ∧
    HasDerivAt (fun t => out_horizontaltail_volume_coefficient
      horizontaltail_vertical_tail_mount_location fuselage_length t wing_area wing_average_chord)
      (J_horizontaltail_volume_coefficient__fuselage_avg_diameter fuselage_length
      fuselage_avg_diameter wing_area wing_average_chord) fuselage_avg_diameter ∧
    HasDerivAt (fun t => out_horizontaltail_volume_coefficient
      horizontaltail_vertical_tail_mount_location fuselage_length fuselage_avg_diameter t
      wing_average_chord) (J_horizontaltail_volume_coefficient__wing_area fuselage_length
      fuselage_avg_diameter wing_area wing_average_chord) wing_area ∧
    HasDerivAt (fun t => out_horizontaltail_volume_coefficient
      horizontaltail_vertical_tail_mount_location fuselage_length fuselage_avg_diameter wing_area
      t) (J_horizontaltail_volume_coefficient__wing_average_chord fuselage_length
      fuselage_avg_diameter wing_area wing_average_chord) wing_average_chord :=
  ⟨d_horizontaltail_volume_coefficient__horizontaltail_vertical_tail_mount_location _ _ _ _ _ h0
    h1, d_horizontaltail_volume_coefficient__fuselage_length _ _ _ _ _ h0 h1,
    d_horizontaltail_volume_coefficient__fuselage_avg_diameter _ _ _ _ _ h0 h1,
    d_horizontaltail_volume_coefficient__wing_area _ _ _ _ _ h0 h1,
    d_horizontaltail_volume_coefficient__wing_average_chord _ _ _ _ _ h0 h1⟩

example : ∃ horizontaltail_vertical_tail_mount_location fuselage_length fuselage_avg_diameter
      wing_area wing_average_chord : ℝ,
      0 < wing_area ∧
      0 < wing_average_chord :=
  ⟨0, 0, 0, 1, 1, by comp_example, by comp_example⟩

end Verif.Comp.GeometryGaspBasedEmpennage.TailVolCoef_otherorientation

