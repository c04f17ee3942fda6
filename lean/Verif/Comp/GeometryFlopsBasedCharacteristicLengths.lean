import Verif.Lemmas.CompDeriv

/-! # Partial derivatives of the components of `aviary/subsystems/geometry/flops_based/characteristic_lengths.py`

One node of a vector component is modelled over the real numbers.  Each option that selects a
branch is fixed, one namespace per choice.  `out_x` is the output `x`, `J_x__y` the entry that
`compute_partials` (or `declare_partials` with `val`) assigns, `d_x__y` the proof that the entry is
the derivative.  Inputs an output does not take as argument have no influence on it.

* `CanardCharacteristicLength`: line 602: branch that sets no output excluded -/

set_option linter.all false

namespace Verif.Comp.GeometryFlopsBasedCharacteristicLengths.BWBWingCharacteristicLength
open Real

/-- aviary/subsystems/geometry/flops_based/characteristic_lengths.py:129 -/
noncomputable def cl (wing_span wing_area : ℝ) : ℝ := wing_area / wing_span

/-- Output `wing_characteristic_length` of `BWBWingCharacteristicLength.compute`, aviary/subsystems/geometry/flops_based/characteristic_lengths.py:130 -/
noncomputable def out_wing_characteristic_length (wing_span wing_area : ℝ) : ℝ :=
  cl wing_span wing_area

/-- Output `wing_fineness` of `BWBWingCharacteristicLength.compute`, aviary/subsystems/geometry/flops_based/characteristic_lengths.py:134 -/
noncomputable def out_wing_fineness (wing_thickness_to_chord : ℝ) : ℝ := wing_thickness_to_chord

/-- Partial of `wing_fineness` with respect to `wing_thickness_to_chord` as set by `BWBWingCharacteristicLength`, aviary/subsystems/geometry/flops_based/characteristic_lengths.py:124 -/
noncomputable def J_wing_fineness__wing_thickness_to_chord : ℝ := 1

/-- Partial of `wing_characteristic_length` with respect to `wing_span` as set by `BWBWingCharacteristicLength`, aviary/subsystems/geometry/flops_based/characteristic_lengths.py:139 -/
noncomputable def J_wing_characteristic_length__wing_span (wing_span wing_area : ℝ) : ℝ :=
  (-wing_area) / (wing_span ^ 2)

/-- Partial of `wing_characteristic_length` with respect to `wing_area` as set by `BWBWingCharacteristicLength`, aviary/subsystems/geometry/flops_based/characteristic_lengths.py:140 -/
noncomputable def J_wing_characteristic_length__wing_area (wing_span : ℝ) : ℝ := 1 / wing_span

theorem d_wing_characteristic_length__wing_span (wing_span wing_area : ℝ) (h0 : 0 < wing_span) :
    HasDerivAt (fun t => out_wing_characteristic_length t wing_area) (J_wing_characteristic_length__wing_span wing_span wing_area) wing_span := by
  simp only [out_wing_characteristic_length, J_wing_characteristic_length__wing_span, cl]
  (apply hasDerivAt_of_eq; on_goal 1 => (repeat' comp_step))
  all_goals try comp_side
  all_goals try simp only [mul_zero, zero_mul, add_zero, zero_add, sub_zero, zero_sub, mul_one, one_mul]
  all_goals try push_cast
  all_goals comp_eq

theorem d_wing_characteristic_length__wing_area (wing_span wing_area : ℝ) (h0 : 0 < wing_span) :
    HasDerivAt (fun t => out_wing_characteristic_length wing_span t) (J_wing_characteristic_length__wing_area wing_span) wing_area := by
  simp only [out_wing_characteristic_length, J_wing_characteristic_length__wing_area, cl]
  (apply hasDerivAt_of_eq; on_goal 1 => (repeat' comp_step))
  all_goals try comp_side
  all_goals try simp only [mul_zero, zero_mul, add_zero, zero_add, sub_zero, zero_sub, mul_one, one_mul]
  all_goals try push_cast
  all_goals comp_eq

theorem d_wing_fineness__wing_thickness_to_chord (wing_thickness_to_chord : ℝ)  :
    HasDerivAt (fun t => out_wing_fineness t) (J_wing_fineness__wing_thickness_to_chord) wing_thickness_to_chord := by
  simp only [out_wing_fineness, J_wing_fineness__wing_thickness_to_chord]
  (apply hasDerivAt_of_eq; on_goal 1 => (repeat' comp_step))
  all_goals try comp_side
  all_goals try simp only [mul_zero, zero_mul, add_zero, zero_add, sub_zero, zero_sub, mul_one, one_mul]
  all_goals try push_cast
  all_goals comp_eq

/-- Every partial derivative set by `BWBWingCharacteristicLength` is the derivative of its output. -/
theorem partials (wing_span wing_area wing_thickness_to_chord : ℝ) (h0 : 0 < wing_span) :
    HasDerivAt (fun t => out_wing_characteristic_length t wing_area)
      (J_wing_characteristic_length__wing_span wing_span wing_area) wing_span ∧
    HasDerivAt (fun t => out_wing_characteristic_length wing_span t)
      (J_wing_characteristic_length__wing_area wing_span) wing_area ∧
    HasDerivAt (fun t => out_wing_fineness t) (J_wing_fineness__wing_thickness_to_chord)
      wing_thickness_to_chord :=
  ⟨d_wing_characteristic_length__wing_span _ _ h0, d_wing_characteristic_length__wing_area _ _ h0,
    d_wing_fineness__wing_thickness_to_chord _⟩

example : ∃ wing_span wing_area wing_thickness_to_chord : ℝ,
      0 < wing_span :=
  ⟨1, 0, 0, by comp_example⟩

end Verif.Comp.GeometryFlopsBasedCharacteristicLengths.BWBWingCharacteristicLength

namespace Verif.Comp.GeometryFlopsBasedCharacteristicLengths.CanardCharacteristicLength
open Real

/-- aviary/subsystems/geometry/flops_based/characteristic_lengths.py:611 -/
noncomputable abbrev length (canard_area canard_aspect_ratio : ℝ) : ℝ :=
  (canard_area / canard_aspect_ratio) ^ ((1 / 2) : ℝ)

/-- aviary/subsystems/geometry/flops_based/characteristic_lengths.py:610 -/
noncomputable abbrev length_2 (canard_area canard_aspect_ratio : ℝ) : ℝ :=
  if 0 < canard_aspect_ratio then (length canard_area canard_aspect_ratio) else 0

/-- aviary/subsystems/geometry/flops_based/characteristic_lengths.py:634 -/
noncomputable abbrev f (canard_area canard_aspect_ratio : ℝ) : ℝ :=
  (1 / 2) * ((canard_area / canard_aspect_ratio) ^ ((-(1 / 2)) : ℝ))

/-- aviary/subsystems/geometry/flops_based/characteristic_lengths.py:635 -/
noncomputable abbrev da (canard_area canard_aspect_ratio : ℝ) : ℝ :=
  (f canard_area canard_aspect_ratio) / canard_aspect_ratio

/-- aviary/subsystems/geometry/flops_based/characteristic_lengths.py:636 -/
noncomputable abbrev dr (canard_area canard_aspect_ratio : ℝ) : ℝ :=
  ((-(f canard_area canard_aspect_ratio)) * canard_area) / (canard_aspect_ratio ^ 2)

/-- aviary/subsystems/geometry/flops_based/characteristic_lengths.py:631 -/
noncomputable abbrev da_2 (canard_area canard_aspect_ratio : ℝ) : ℝ :=
  if 0 < canard_aspect_ratio then (da canard_area canard_aspect_ratio) else 0

/-- aviary/subsystems/geometry/flops_based/characteristic_lengths.py:631 -/
noncomputable abbrev dr_2 (canard_area canard_aspect_ratio : ℝ) : ℝ :=
  if 0 < canard_aspect_ratio then (dr canard_area canard_aspect_ratio) else 0

/-- Output `canard_characteristic_length` of `CanardCharacteristicLength.compute`, aviary/subsystems/geometry/flops_based/characteristic_lengths.py:613 -/
noncomputable def out_canard_characteristic_length (canard_area canard_aspect_ratio : ℝ) : ℝ :=
  length_2 canard_area canard_aspect_ratio

/-- Output `canard_fineness` of `CanardCharacteristicLength.compute`, aviary/subsystems/geometry/flops_based/characteristic_lengths.py:615 -/
noncomputable def out_canard_fineness (canard_thickness_to_chord : ℝ) : ℝ :=
  canard_thickness_to_chord

/-- Partial of `canard_characteristic_length` with respect to `canard_area` as set by `CanardCharacteristicLength`, aviary/subsystems/geometry/flops_based/characteristic_lengths.py:638 -/
noncomputable def J_canard_characteristic_length__canard_area (canard_area canard_aspect_ratio : ℝ) : ℝ :=
  da_2 canard_area canard_aspect_ratio

/-- Partial of `canard_characteristic_length` with respect to `canard_aspect_ratio` as set by `CanardCharacteristicLength`, aviary/subsystems/geometry/flops_based/characteristic_lengths.py:640 -/
noncomputable def J_canard_characteristic_length__canard_aspect_ratio (canard_area canard_aspect_ratio : ℝ) : ℝ :=
  dr_2 canard_area canard_aspect_ratio

/-- Partial of `canard_fineness` with respect to `canard_thickness_to_chord` as set by `CanardCharacteristicLength`, aviary/subsystems/geometry/flops_based/characteristic_lengths.py:642 -/
noncomputable def J_canard_fineness__canard_thickness_to_chord : ℝ := 1

theorem d_canard_characteristic_length__canard_area (canard_area canard_aspect_ratio : ℝ) (h0 : ¬
    (canard_area ≤ 0)) (h1 : 0 < canard_aspect_ratio) (h2 : 0 < canard_area) :
    HasDerivAt (fun t => out_canard_characteristic_length t canard_aspect_ratio) (J_canard_characteristic_length__canard_area canard_area canard_aspect_ratio) canard_area := by
  have e0 : ∀ x : ℝ, 0 < x → x ^ ((-(1 / 2)) : ℝ) = x ^ ((1 / 2) : ℝ) / x ^ 1 := fun x hx => rpow_down hx 1 (by norm_num)
  simp only [out_canard_characteristic_length, J_canard_characteristic_length__canard_area, da_2, da, f, length_2, length]
  try split_ifs
  all_goals (apply hasDerivAt_of_eq; on_goal 1 => (repeat' comp_step))
  all_goals try comp_side
  all_goals try simp (disch := first | assumption | positivity) only [e0, div_mul_eq_div_div, div_half, inv_half]
  all_goals try split_ifs
  all_goals try (exfalso; linarith)
  all_goals try simp only [mul_zero, zero_mul, add_zero, zero_add, sub_zero, zero_sub, mul_one, one_mul]
  all_goals try push_cast
  all_goals comp_eq

theorem d_canard_characteristic_length__canard_aspect_ratio (canard_area canard_aspect_ratio : ℝ)
    (h0 : ¬ (canard_area ≤ 0)) (h1 : 0 ≠ canard_aspect_ratio) (h2 : 0 < canard_aspect_ratio) (h3 :
    0 < canard_area) :
    HasDerivAt (fun t => out_canard_characteristic_length canard_area t) (J_canard_characteristic_length__canard_aspect_ratio canard_area canard_aspect_ratio) canard_aspect_ratio := by
  have e0 : ∀ x : ℝ, 0 < x → x ^ ((-(1 / 2)) : ℝ) = x ^ ((1 / 2) : ℝ) / x ^ 1 := fun x hx => rpow_down hx 1 (by norm_num)
  simp only [out_canard_characteristic_length, J_canard_characteristic_length__canard_aspect_ratio, dr_2, dr, f, length_2, length]
  try split_ifs
  all_goals (apply hasDerivAt_of_eq; on_goal 1 => (repeat' comp_step))
  all_goals try comp_side
  all_goals try simp (disch := first | assumption | positivity) only [e0, div_mul_eq_div_div, div_half, inv_half]
  all_goals try split_ifs
  all_goals try (exfalso; linarith)
  all_goals try simp only [mul_zero, zero_mul, add_zero, zero_add, sub_zero, zero_sub, mul_one, one_mul]
  all_goals try push_cast
  all_goals comp_eq

theorem d_canard_fineness__canard_thickness_to_chord (canard_area canard_thickness_to_chord : ℝ)
    (h0 : ¬ (canard_area ≤ 0)) :
    HasDerivAt (fun t => out_canard_fineness t) (J_canard_fineness__canard_thickness_to_chord) canard_thickness_to_chord := by
  simp only [out_canard_fineness, J_canard_fineness__canard_thickness_to_chord]
  (apply hasDerivAt_of_eq; on_goal 1 => (repeat' comp_step))
  all_goals try comp_side
  all_goals try simp only [mul_zero, zero_mul, add_zero, zero_add, sub_zero, zero_sub, mul_one, one_mul]
  all_goals try push_cast
  all_goals comp_eq

/-- Every partial derivative set by `CanardCharacteristicLength` is the derivative of its output. -/
theorem partials (canard_area canard_thickness_to_chord canard_aspect_ratio : ℝ) (h0 : ¬
    (canard_area ≤ 0)) (h1 : 0 < canard_aspect_ratio) (h2 : 0 < canard_area) (h3 : 0 ≠
    canard_aspect_ratio) :
    HasDerivAt (fun t => out_canard_characteristic_length t canard_aspect_ratio)
      (J_canard_characteristic_length__canard_area canard_area canard_aspect_ratio) canard_area ∧
    HasDerivAt (fun t => out_canard_characteristic_length canard_area t)
      (J_canard_characteristic_length__canard_aspect_ratio canard_area canard_aspect_ratio)
      canard_aspect_ratio ∧
    HasDerivAt (fun t => out_canard_fineness t) (J_canard_fineness__canard_thickness_to_chord)
      canard_thickness_to_chord :=
  ⟨d_canard_characteristic_length__canard_area _ _ h0 h1 h2,
    d_canard_characteristic_length__canard_aspect_ratio _ _ h0 h3 h1 h2,
    d_canard_fineness__canard_thickness_to_chord _ _ h0⟩

example : ∃ canard_area canard_thickness_to_chord canard_aspect_ratio : ℝ,
      ¬ (canard_area ≤ 0) ∧
      0 < canard_aspect_ratio ∧
      0 < canard_area ∧
      0 ≠ canard_aspect_ratio :=
  ⟨1, 0, 1, by comp_example, by comp_example, by comp_example, by comp_example⟩

end Verif.Comp.GeometryFlopsBasedCharacteristicLengths.CanardCharacteristicLength

namespace Verif.Comp.GeometryFlopsBasedCharacteristicLengths.FuselageCharacteristicLengths
open Real

/-- aviary/subsystems/geometry/flops_based/characteristic_lengths.py:213 -/
noncomputable def fineness (fuselage_length fuselage_ref_diameter : ℝ) : ℝ :=
  fuselage_length / fuselage_ref_diameter

/-- Output `fuselage_characteristic_length` of `FuselageCharacteristicLengths.compute`, aviary/subsystems/geometry/flops_based/characteristic_lengths.py:209 -/
noncomputable def out_fuselage_characteristic_length (fuselage_length : ℝ) : ℝ := fuselage_length

/-- Output `fuselage_fineness` of `FuselageCharacteristicLengths.compute`, aviary/subsystems/geometry/flops_based/characteristic_lengths.py:215 -/
noncomputable def out_fuselage_fineness (fuselage_length fuselage_ref_diameter : ℝ) : ℝ :=
  fineness fuselage_length fuselage_ref_diameter

/-- Partial of `fuselage_characteristic_length` with respect to `fuselage_length` as set by `FuselageCharacteristicLengths`, aviary/subsystems/geometry/flops_based/characteristic_lengths.py:194 -/
noncomputable def J_fuselage_characteristic_length__fuselage_length : ℝ := 1

/-- Partial of `fuselage_fineness` with respect to `fuselage_length` as set by `FuselageCharacteristicLengths`, aviary/subsystems/geometry/flops_based/characteristic_lengths.py:229 -/
noncomputable def J_fuselage_fineness__fuselage_length (fuselage_ref_diameter : ℝ) : ℝ :=
  1 / fuselage_ref_diameter

/-- Partial of `fuselage_fineness` with respect to `fuselage_ref_diameter` as set by `FuselageCharacteristicLengths`, aviary/subsystems/geometry/flops_based/characteristic_lengths.py:231 -/
noncomputable def J_fuselage_fineness__fuselage_ref_diameter (fuselage_length fuselage_ref_diameter : ℝ) : ℝ :=
  (-fuselage_length) / (fuselage_ref_diameter ^ 2)

theorem d_fuselage_characteristic_length__fuselage_length (fuselage_length : ℝ)  :
    HasDerivAt (fun t => out_fuselage_characteristic_length t) (J_fuselage_characteristic_length__fuselage_length) fuselage_length := by
  simp only [out_fuselage_characteristic_length, J_fuselage_characteristic_length__fuselage_length]
  (apply hasDerivAt_of_eq; on_goal 1 => (repeat' comp_step))
  all_goals try comp_side
  all_goals try simp only [mul_zero, zero_mul, add_zero, zero_add, sub_zero, zero_sub, mul_one, one_mul]
  all_goals try push_cast
  all_goals comp_eq

theorem d_fuselage_fineness__fuselage_length (fuselage_length fuselage_ref_diameter : ℝ) (h0 : 0 <
    fuselage_ref_diameter) :
    HasDerivAt (fun t => out_fuselage_fineness t fuselage_ref_diameter) (J_fuselage_fineness__fuselage_length fuselage_ref_diameter) fuselage_length := by
  simp only [out_fuselage_fineness, J_fuselage_fineness__fuselage_length, fineness]
  (apply hasDerivAt_of_eq; on_goal 1 => (repeat' comp_step))
  all_goals try comp_side
  all_goals try simp only [mul_zero, zero_mul, add_zero, zero_add, sub_zero, zero_sub, mul_one, one_mul]
  all_goals try push_cast
  all_goals comp_eq

theorem d_fuselage_fineness__fuselage_ref_diameter (fuselage_length fuselage_ref_diameter : ℝ) (h0
    : 0 < fuselage_ref_diameter) :
    HasDerivAt (fun t => out_fuselage_fineness fuselage_length t) (J_fuselage_fineness__fuselage_ref_diameter fuselage_length fuselage_ref_diameter) fuselage_ref_diameter := by
  simp only [out_fuselage_fineness, J_fuselage_fineness__fuselage_ref_diameter, fineness]
  (apply hasDerivAt_of_eq; on_goal 1 => (repeat' comp_step))
  all_goals try comp_side
  all_goals try simp only [mul_zero, zero_mul, add_zero, zero_add, sub_zero, zero_sub, mul_one, one_mul]
  all_goals try push_cast
  all_goals comp_eq

/-- Every partial derivative set by `FuselageCharacteristicLengths` is the derivative of its output. -/
theorem partials (fuselage_length fuselage_ref_diameter : ℝ) (h0 : 0 < fuselage_ref_diameter) :
    HasDerivAt (fun t => out_fuselage_characteristic_length t)
      (J_fuselage_characteristic_length__fuselage_length) fuselage_length ∧
    HasDerivAt (fun t => out_fuselage_fineness t fuselage_ref_diameter)
      (J_fuselage_fineness__fuselage_length fuselage_ref_diameter) fuselage_length ∧
    HasDerivAt (fun t => out_fuselage_fineness fuselage_length t)
      (J_fuselage_fineness__fuselage_ref_diameter fuselage_length fuselage_ref_diameter)
      fuselage_ref_diameter :=
  ⟨d_fuselage_characteristic_length__fuselage_length _, d_fuselage_fineness__fuselage_length _ _
    h0, d_fuselage_fineness__fuselage_ref_diameter _ _ h0⟩

example : ∃ fuselage_length fuselage_ref_diameter : ℝ,
      0 < fuselage_ref_diameter :=
  ⟨0, 1, by comp_example⟩

end Verif.Comp.GeometryFlopsBasedCharacteristicLengths.FuselageCharacteristicLengths

namespace Verif.Comp.GeometryFlopsBasedCharacteristicLengths.HorizontalTailCharacteristicLength
open Real

/-- aviary/subsystems/geometry/flops_based/characteristic_lengths.py:477 -/
noncomputable abbrev length (horizontaltail_aspect_ratio horizontaltail_area : ℝ) : ℝ :=
  (horizontaltail_area / horizontaltail_aspect_ratio) ^ ((1 / 2) : ℝ)

/-- aviary/subsystems/geometry/flops_based/characteristic_lengths.py:474 -/
noncomputable abbrev length_2 (horizontaltail_aspect_ratio horizontaltail_area : ℝ) : ℝ :=
  if 0 < horizontaltail_aspect_ratio then (length horizontaltail_aspect_ratio
    horizontaltail_area) else 0

/-- aviary/subsystems/geometry/flops_based/characteristic_lengths.py:471 -/
noncomputable abbrev length_3 (horizontaltail_num_tails horizontaltail_aspect_ratio horizontaltail_area : ℝ) : ℝ :=
  if 0 < horizontaltail_num_tails then (length_2 horizontaltail_aspect_ratio
    horizontaltail_area) else 0

/-- aviary/subsystems/geometry/flops_based/characteristic_lengths.py:495 -/
noncomputable abbrev f (horizontaltail_aspect_ratio horizontaltail_area : ℝ) : ℝ :=
  (1 / 2) * ((horizontaltail_area / horizontaltail_aspect_ratio) ^ ((-(1 / 2)) : ℝ))

/-- aviary/subsystems/geometry/flops_based/characteristic_lengths.py:496 -/
noncomputable abbrev da (horizontaltail_aspect_ratio horizontaltail_area : ℝ) : ℝ :=
  (f horizontaltail_aspect_ratio horizontaltail_area) / horizontaltail_aspect_ratio

/-- aviary/subsystems/geometry/flops_based/characteristic_lengths.py:497 -/
noncomputable abbrev dr (horizontaltail_aspect_ratio horizontaltail_area : ℝ) : ℝ :=
  ((-(f horizontaltail_aspect_ratio horizontaltail_area)) * horizontaltail_area) /
    (horizontaltail_aspect_ratio ^ 2)

/-- aviary/subsystems/geometry/flops_based/characteristic_lengths.py:492 -/
noncomputable abbrev da_2 (horizontaltail_aspect_ratio horizontaltail_area : ℝ) : ℝ :=
  if 0 < horizontaltail_aspect_ratio then (da horizontaltail_aspect_ratio horizontaltail_area)
    else 0

/-- aviary/subsystems/geometry/flops_based/characteristic_lengths.py:492 -/
noncomputable abbrev dr_2 (horizontaltail_aspect_ratio horizontaltail_area : ℝ) : ℝ :=
  if 0 < horizontaltail_aspect_ratio then (dr horizontaltail_aspect_ratio horizontaltail_area)
    else 0

/-- Output `horizontaltail_characteristic_length` of `HorizontalTailCharacteristicLength.compute`, aviary/subsystems/geometry/flops_based/characteristic_lengths.py:479 -/
noncomputable def out_horizontaltail_characteristic_length (horizontaltail_num_tails horizontaltail_aspect_ratio horizontaltail_area : ℝ) : ℝ :=
  length_3 horizontaltail_num_tails horizontaltail_aspect_ratio horizontaltail_area

/-- Output `horizontaltail_fineness` of `HorizontalTailCharacteristicLength.compute`, aviary/subsystems/geometry/flops_based/characteristic_lengths.py:482 -/
noncomputable def out_horizontaltail_fineness (horizontaltail_thickness_to_chord : ℝ) : ℝ :=
  horizontaltail_thickness_to_chord

/-- Partial of `horizontaltail_fineness` with respect to `horizontaltail_thickness_to_chord` as set by `HorizontalTailCharacteristicLength`, aviary/subsystems/geometry/flops_based/characteristic_lengths.py:462 -/
noncomputable def J_horizontaltail_fineness__horizontaltail_thickness_to_chord : ℝ := 1

/-- Partial of `horizontaltail_characteristic_length` with respect to `horizontaltail_area` as set by `HorizontalTailCharacteristicLength`, aviary/subsystems/geometry/flops_based/characteristic_lengths.py:499 -/
noncomputable def J_horizontaltail_characteristic_length__horizontaltail_area (horizontaltail_num_tails horizontaltail_aspect_ratio horizontaltail_area : ℝ) : ℝ :=
  if 0 < horizontaltail_num_tails then (da_2 horizontaltail_aspect_ratio horizontaltail_area)
    else 0

/-- Partial of `horizontaltail_characteristic_length` with respect to `horizontaltail_aspect_ratio` as set by `HorizontalTailCharacteristicLength`, aviary/subsystems/geometry/flops_based/characteristic_lengths.py:500 -/
noncomputable def J_horizontaltail_characteristic_length__horizontaltail_aspect_ratio (horizontaltail_num_tails horizontaltail_aspect_ratio horizontaltail_area : ℝ) : ℝ :=
  if 0 < horizontaltail_num_tails then (dr_2 horizontaltail_aspect_ratio horizontaltail_area)
    else 0

theorem d_horizontaltail_characteristic_length__horizontaltail_aspect_ratio
    (horizontaltail_num_tails horizontaltail_aspect_ratio horizontaltail_area : ℝ) (h0 : 0 ≠
    horizontaltail_aspect_ratio) (h1 : 0 < horizontaltail_aspect_ratio) (h2 : 0 <
    horizontaltail_area) :
    HasDerivAt (fun t => out_horizontaltail_characteristic_length horizontaltail_num_tails t horizontaltail_area) (J_horizontaltail_characteristic_length__horizontaltail_aspect_ratio horizontaltail_num_tails horizontaltail_aspect_ratio horizontaltail_area) horizontaltail_aspect_ratio := by
  have e0 : ∀ x : ℝ, 0 < x → x ^ ((-(1 / 2)) : ℝ) = x ^ ((1 / 2) : ℝ) / x ^ 1 := fun x hx => rpow_down hx 1 (by norm_num)
  simp only [out_horizontaltail_characteristic_length, J_horizontaltail_characteristic_length__horizontaltail_aspect_ratio, dr_2, dr, f, length_3, length_2, length]
  try split_ifs
  all_goals (apply hasDerivAt_of_eq; on_goal 1 => (repeat' comp_step))
  all_goals try comp_side
  all_goals try simp (disch := first | assumption | positivity) only [e0, div_mul_eq_div_div, div_half, inv_half]
  all_goals try split_ifs
  all_goals try (exfalso; linarith)
  all_goals try simp only [mul_zero, zero_mul, add_zero, zero_add, sub_zero, zero_sub, mul_one, one_mul]
  all_goals try push_cast
  all_goals comp_eq

theorem d_horizontaltail_characteristic_length__horizontaltail_area (horizontaltail_num_tails
    horizontaltail_aspect_ratio horizontaltail_area : ℝ) (h0 : 0 < horizontaltail_aspect_ratio)
    (h1 : 0 < horizontaltail_area) :
    HasDerivAt (fun t => out_horizontaltail_characteristic_length horizontaltail_num_tails horizontaltail_aspect_ratio t) (J_horizontaltail_characteristic_length__horizontaltail_area horizontaltail_num_tails horizontaltail_aspect_ratio horizontaltail_area) horizontaltail_area := by
  have e0 : ∀ x : ℝ, 0 < x → x ^ ((-(1 / 2)) : ℝ) = x ^ ((1 / 2) : ℝ) / x ^ 1 := fun x hx => rpow_down hx 1 (by norm_num)
  simp only [out_horizontaltail_characteristic_length, J_horizontaltail_characteristic_length__horizontaltail_area, da_2, da, f, length_3, length_2, length]
  try split_ifs
  all_goals (apply hasDerivAt_of_eq; on_goal 1 => (repeat' comp_step))
  all_goals try comp_side
  all_goals try simp (disch := first | assumption | positivity) only [e0, div_mul_eq_div_div, div_half, inv_half]
  all_goals try split_ifs
  all_goals try (exfalso; linarith)
  all_goals try simp only [mul_zero, zero_mul, add_zero, zero_add, sub_zero, zero_sub, mul_one, one_mul]
  all_goals try push_cast
  all_goals comp_eq

theorem d_horizontaltail_fineness__horizontaltail_thickness_to_chord
    (horizontaltail_thickness_to_chord : ℝ)  :
    HasDerivAt (fun t => out_horizontaltail_fineness t) (J_horizontaltail_fineness__horizontaltail_thickness_to_chord) horizontaltail_thickness_to_chord := by
  simp only [out_horizontaltail_fineness, J_horizontaltail_fineness__horizontaltail_thickness_to_chord]
  (apply hasDerivAt_of_eq; on_goal 1 => (repeat' comp_step))
  all_goals try comp_side
  all_goals try simp only [mul_zero, zero_mul, add_zero, zero_add, sub_zero, zero_sub, mul_one, one_mul]
  all_goals try push_cast
  all_goals comp_eq

/-- Every partial derivative set by `HorizontalTailCharacteristicLength` is the derivative of its output. -/
theorem partials (horizontaltail_num_tails horizontaltail_aspect_ratio horizontaltail_area
    horizontaltail_thickness_to_chord : ℝ) (h0 : 0 ≠ horizontaltail_aspect_ratio) (h1 : 0 <
    horizontaltail_aspect_ratio) (h2 : 0 < horizontaltail_area) :
    HasDerivAt (fun t => out_horizontaltail_characteristic_length horizontaltail_num_tails t
      horizontaltail_area) (J_horizontaltail_characteristic_length__horizontaltail_aspect_ratio
      horizontaltail_num_tails horizontaltail_aspect_ratio horizontaltail_area)
      horizontaltail_aspect_ratio ∧
    HasDerivAt (fun t => out_horizontaltail_characteristic_length horizontaltail_num_tails
      horizontaltail_aspect_ratio t) (J_horizontaltail_characteristic_length__horizontaltail_area
      horizontaltail_num_tails horizontaltail_aspect_ratio horizontaltail_area)
      horizontaltail_area ∧
    HasDerivAt (fun t => out_horizontaltail_fineness t)
      (J_horizontaltail_fineness__horizontaltail_thickness_to_chord)
      horizontaltail_thickness_to_chord :=
  ⟨d_horizontaltail_characteristic_length__horizontaltail_aspect_ratio _ _ _ h0 h1 h2,
    d_horizontaltail_characteristic_length__horizontaltail_area _ _ _ h1 h2,
    d_horizontaltail_fineness__horizontaltail_thickness_to_chord _⟩

example : ∃ horizontaltail_num_tails horizontaltail_aspect_ratio horizontaltail_area
      horizontaltail_thickness_to_chord : ℝ,
      0 ≠ horizontaltail_aspect_ratio ∧
      0 < horizontaltail_aspect_ratio ∧
      0 < horizontaltail_area :=
  ⟨0, 1, 1, 0, by comp_example, by comp_example, by comp_example⟩

end Verif.Comp.GeometryFlopsBasedCharacteristicLengths.HorizontalTailCharacteristicLength

namespace Verif.Comp.GeometryFlopsBasedCharacteristicLengths.VerticalTailCharacteristicLength
open Real

/-- aviary/subsystems/geometry/flops_based/characteristic_lengths.py:546 -/
noncomputable abbrev length (verticaltail_aspect_ratio verticaltail_area : ℝ) : ℝ :=
  (verticaltail_area / verticaltail_aspect_ratio) ^ ((1 / 2) : ℝ)

/-- aviary/subsystems/geometry/flops_based/characteristic_lengths.py:544 -/
noncomputable abbrev length_2 (verticaltail_aspect_ratio verticaltail_area : ℝ) : ℝ :=
  if 0 < verticaltail_aspect_ratio then (length verticaltail_aspect_ratio verticaltail_area)
    else 0

/-- aviary/subsystems/geometry/flops_based/characteristic_lengths.py:541 -/
noncomputable abbrev length_3 (verticaltail_num_tails verticaltail_aspect_ratio verticaltail_area : ℝ) : ℝ :=
  if 0 < verticaltail_num_tails then (length_2 verticaltail_aspect_ratio verticaltail_area) else
    0

/-- aviary/subsystems/geometry/flops_based/characteristic_lengths.py:562 -/
noncomputable abbrev f (verticaltail_aspect_ratio verticaltail_area : ℝ) : ℝ :=
  (1 / 2) * ((verticaltail_area / verticaltail_aspect_ratio) ^ ((-(1 / 2)) : ℝ))

/-- aviary/subsystems/geometry/flops_based/characteristic_lengths.py:563 -/
noncomputable abbrev da (verticaltail_aspect_ratio verticaltail_area : ℝ) : ℝ :=
  (f verticaltail_aspect_ratio verticaltail_area) / verticaltail_aspect_ratio

/-- aviary/subsystems/geometry/flops_based/characteristic_lengths.py:564 -/
noncomputable abbrev dr (verticaltail_aspect_ratio verticaltail_area : ℝ) : ℝ :=
  ((-(f verticaltail_aspect_ratio verticaltail_area)) * verticaltail_area) /
    (verticaltail_aspect_ratio ^ 2)

/-- aviary/subsystems/geometry/flops_based/characteristic_lengths.py:559 -/
noncomputable abbrev da_2 (verticaltail_aspect_ratio verticaltail_area : ℝ) : ℝ :=
  if 0 < verticaltail_aspect_ratio then (da verticaltail_aspect_ratio verticaltail_area) else 0

/-- aviary/subsystems/geometry/flops_based/characteristic_lengths.py:559 -/
noncomputable abbrev dr_2 (verticaltail_aspect_ratio verticaltail_area : ℝ) : ℝ :=
  if 0 < verticaltail_aspect_ratio then (dr verticaltail_aspect_ratio verticaltail_area) else 0

/-- Output `verticaltail_characteristic_length` of `VerticalTailCharacteristicLength.compute`, aviary/subsystems/geometry/flops_based/characteristic_lengths.py:548 -/
noncomputable def out_verticaltail_characteristic_length (verticaltail_num_tails verticaltail_aspect_ratio verticaltail_area : ℝ) : ℝ :=
  length_3 verticaltail_num_tails verticaltail_aspect_ratio verticaltail_area

/-- Output `verticaltail_fineness` of `VerticalTailCharacteristicLength.compute`, aviary/subsystems/geometry/flops_based/characteristic_lengths.py:551 -/
noncomputable def out_verticaltail_fineness (verticaltail_thickness_to_chord : ℝ) : ℝ :=
  verticaltail_thickness_to_chord

/-- Partial of `verticaltail_fineness` with respect to `verticaltail_thickness_to_chord` as set by `VerticalTailCharacteristicLength`, aviary/subsystems/geometry/flops_based/characteristic_lengths.py:534 -/
noncomputable def J_verticaltail_fineness__verticaltail_thickness_to_chord : ℝ := 1

/-- Partial of `verticaltail_characteristic_length` with respect to `verticaltail_area` as set by `VerticalTailCharacteristicLength`, aviary/subsystems/geometry/flops_based/characteristic_lengths.py:566 -/
noncomputable def J_verticaltail_characteristic_length__verticaltail_area (verticaltail_num_tails verticaltail_aspect_ratio verticaltail_area : ℝ) : ℝ :=
  if 0 < verticaltail_num_tails then (da_2 verticaltail_aspect_ratio verticaltail_area) else 0

/-- Partial of `verticaltail_characteristic_length` with respect to `verticaltail_aspect_ratio` as set by `VerticalTailCharacteristicLength`, aviary/subsystems/geometry/flops_based/characteristic_lengths.py:567 -/
noncomputable def J_verticaltail_characteristic_length__verticaltail_aspect_ratio (verticaltail_num_tails verticaltail_aspect_ratio verticaltail_area : ℝ) : ℝ :=
  if 0 < verticaltail_num_tails then (dr_2 verticaltail_aspect_ratio verticaltail_area) else 0

theorem d_verticaltail_characteristic_length__verticaltail_aspect_ratio (verticaltail_num_tails
    verticaltail_aspect_ratio verticaltail_area : ℝ) (h0 : 0 ≠ verticaltail_aspect_ratio) (h1 : 0
    < verticaltail_aspect_ratio) (h2 : 0 < verticaltail_area) :
    HasDerivAt (fun t => out_verticaltail_characteristic_length verticaltail_num_tails t verticaltail_area) (J_verticaltail_characteristic_length__verticaltail_aspect_ratio verticaltail_num_tails verticaltail_aspect_ratio verticaltail_area) verticaltail_aspect_ratio := by
  have e0 : ∀ x : ℝ, 0 < x → x ^ ((-(1 / 2)) : ℝ) = x ^ ((1 / 2) : ℝ) / x ^ 1 := fun x hx => rpow_down hx 1 (by norm_num)
  simp only [out_verticaltail_characteristic_length, J_verticaltail_characteristic_length__verticaltail_aspect_ratio, dr_2, dr, f, length_3, length_2, length]
  try split_ifs
  all_goals (apply hasDerivAt_of_eq; on_goal 1 => (repeat' comp_step))
  all_goals try comp_side
  all_goals try simp (disch := first | assumption | positivity) only [e0, div_mul_eq_div_div, div_half, inv_half]
  all_goals try split_ifs
  all_goals try (exfalso; linarith)
  all_goals try simp only [mul_zero, zero_mul, add_zero, zero_add, sub_zero, zero_sub, mul_one, one_mul]
  all_goals try push_cast
  all_goals comp_eq

theorem d_verticaltail_characteristic_length__verticaltail_area (verticaltail_num_tails
    verticaltail_aspect_ratio verticaltail_area : ℝ) (h0 : 0 < verticaltail_aspect_ratio) (h1 : 0
    < verticaltail_area) :
    HasDerivAt (fun t => out_verticaltail_characteristic_length verticaltail_num_tails verticaltail_aspect_ratio t) (J_verticaltail_characteristic_length__verticaltail_area verticaltail_num_tails verticaltail_aspect_ratio verticaltail_area) verticaltail_area := by
  have e0 : ∀ x : ℝ, 0 < x → x ^ ((-(1 / 2)) : ℝ) = x ^ ((1 / 2) : ℝ) / x ^ 1 := fun x hx => rpow_down hx 1 (by norm_num)
  simp only [out_verticaltail_characteristic_length, J_verticaltail_characteristic_length__verticaltail_area, da_2, da, f, length_3, length_2, length]
  try split_ifs
  all_goals (apply hasDerivAt_of_eq; on_goal 1 => (repeat' comp_step))
  all_goals try comp_side
  all_goals try simp (disch := first | assumption | positivity) only [e0, div_mul_eq_div_div, div_half, inv_half]
  all_goals try split_ifs
  all_goals try (exfalso; linarith)
  all_goals try simp only [mul_zero, zero_mul, add_zero, zero_add, sub_zero, zero_sub, mul_one, one_mul]
  all_goals try push_cast
  all_goals comp_eq

theorem d_verticaltail_fineness__verticaltail_thickness_to_chord (verticaltail_thickness_to_chord
    : ℝ)  :
    HasDerivAt (fun t => out_verticaltail_fineness t) (J_verticaltail_fineness__verticaltail_thickness_to_chord) verticaltail_thickness_to_chord := by
  simp only [out_verticaltail_fineness, J_verticaltail_fineness__verticaltail_thickness_to_chord]
  (apply hasDerivAt_of_eq; on_goal 1 => (repeat' comp_step))
  all_goals try comp_side
  all_goals try simp only [mul_zero, zero_mul, add_zero, zero_add, sub_zero, zero_sub, mul_one, one_mul]
  all_goals try push_cast
  all_goals comp_eq

/-- Every partial derivative set by `VerticalTailCharacteristicLength` is the derivative of its output. -/
theorem partials (verticaltail_num_tails verticaltail_aspect_ratio verticaltail_area
    verticaltail_thickness_to_chord : ℝ) (h0 : 0 ≠ verticaltail_aspect_ratio) (h1 : 0 <
    verticaltail_aspect_ratio) (h2 : 0 < verticaltail_area) :
    HasDerivAt (fun t => out_verticaltail_characteristic_length verticaltail_num_tails t
      verticaltail_area) (J_verticaltail_characteristic_length__verticaltail_aspect_ratio
      verticaltail_num_tails verticaltail_aspect_ratio verticaltail_area)
      verticaltail_aspect_ratio ∧
    HasDerivAt (fun t => out_verticaltail_characteristic_length verticaltail_num_tails
      verticaltail_aspect_ratio t) (J_verticaltail_characteristic_length__verticaltail_area
      verticaltail_num_tails verticaltail_aspect_ratio verticaltail_area) verticaltail_area ∧
    HasDerivAt (fun t => out_verticaltail_fineness t)
      (J_verticaltail_fineness__verticaltail_thickness_to_chord) verticaltail_thickness_to_chord :=
  ⟨d_verticaltail_characteristic_length__verticaltail_aspect_ratio _ _ _ h0 h1 h2,
    d_verticaltail_characteristic_length__verticaltail_area _ _ _ h1 h2,
    d_verticaltail_fineness__verticaltail_thickness_to_chord _⟩

example : ∃ verticaltail_num_tails verticaltail_aspect_ratio verticaltail_area
      verticaltail_thickness_to_chord : ℝ,
      0 ≠ verticaltail_aspect_ratio ∧
      0 < verticaltail_aspect_ratio ∧
      0 < verticaltail_area :=
  ⟨0, 1, 1, 0, by comp_example, by comp_example, by comp_example⟩

end Verif.Comp.GeometryFlopsBasedCharacteristicLengths.VerticalTailCharacteristicLength

namespace Verif.Comp.GeometryFlopsBasedCharacteristicLengths.WingCharacteristicLength_wingspanefficiencyreduction
open Real

/-- aviary/subsystems/geometry/flops_based/characteristic_lengths.py:56 -/
noncomputable def length (wing_taper_ratio names_croot : ℝ) : ℝ :=
  ((2 * names_croot) * ((1 + wing_taper_ratio) + (wing_taper_ratio ^ 2))) / (3 + (3 *
    wing_taper_ratio))

/-- aviary/subsystems/geometry/flops_based/characteristic_lengths.py:73 -/
noncomputable def a (wing_taper_ratio : ℝ) : ℝ :=
  2 * ((1 + wing_taper_ratio) + (wing_taper_ratio ^ 2))

/-- aviary/subsystems/geometry/flops_based/characteristic_lengths.py:74 -/
noncomputable def f (wing_taper_ratio names_croot : ℝ) : ℝ := (a wing_taper_ratio) * names_croot

/-- aviary/subsystems/geometry/flops_based/characteristic_lengths.py:75 -/
noncomputable def df (wing_taper_ratio names_croot : ℝ) : ℝ :=
  (2 * names_croot) * (1 + (2 * wing_taper_ratio))

/-- aviary/subsystems/geometry/flops_based/characteristic_lengths.py:76 -/
noncomputable def g (wing_taper_ratio : ℝ) : ℝ := 3 + (3 * wing_taper_ratio)

/-- Output `wing_characteristic_length` of `WingCharacteristicLength.compute`, aviary/subsystems/geometry/flops_based/characteristic_lengths.py:62 -/
noncomputable def out_wing_characteristic_length (wing_taper_ratio names_croot : ℝ) : ℝ :=
  length wing_taper_ratio names_croot

/-- Output `wing_fineness` of `WingCharacteristicLength.compute`, aviary/subsystems/geometry/flops_based/characteristic_lengths.py:66 -/
noncomputable def out_wing_fineness (wing_thickness_to_chord : ℝ) : ℝ := wing_thickness_to_chord

/-- Partial of `wing_fineness` with respect to `wing_thickness_to_chord` as set by `WingCharacteristicLength`, aviary/subsystems/geometry/flops_based/characteristic_lengths.py:45 -/
noncomputable def J_wing_fineness__wing_thickness_to_chord : ℝ := 1

/-- Partial of `wing_characteristic_length` with respect to `names_croot` as set by `WingCharacteristicLength`, aviary/subsystems/geometry/flops_based/characteristic_lengths.py:79 -/
noncomputable def J_wing_characteristic_length__names_croot (wing_taper_ratio : ℝ) : ℝ :=
  (a wing_taper_ratio) / (g wing_taper_ratio)

/-- Partial of `wing_characteristic_length` with respect to `wing_taper_ratio` as set by `WingCharacteristicLength`, aviary/subsystems/geometry/flops_based/characteristic_lengths.py:81 -/
noncomputable def J_wing_characteristic_length__wing_taper_ratio (wing_taper_ratio names_croot : ℝ) : ℝ :=
  (((df wing_taper_ratio names_croot) * (g wing_taper_ratio)) - ((f wing_taper_ratio
    names_croot) * 3)) / ((g wing_taper_ratio) ^ 2)

theorem d_wing_characteristic_length__wing_taper_ratio (wing_taper_ratio names_croot : ℝ) (h0 : 0
    < wing_taper_ratio) :
    HasDerivAt (fun t => out_wing_characteristic_length t names_croot) (J_wing_characteristic_length__wing_taper_ratio wing_taper_ratio names_croot) wing_taper_ratio := by
  simp only [out_wing_characteristic_length, J_wing_characteristic_length__wing_taper_ratio, f, a, g, df, length]
  (apply hasDerivAt_of_eq; on_goal 1 => (repeat' comp_step))
  all_goals try comp_side
  all_goals try simp only [mul_zero, zero_mul, add_zero, zero_add, sub_zero, zero_sub, mul_one, one_mul]
  all_goals try push_cast
  all_goals comp_eq

theorem d_wing_characteristic_length__names_croot (wing_taper_ratio names_croot : ℝ) (h0 : 0 <
    wing_taper_ratio) :
    HasDerivAt (fun t => out_wing_characteristic_length wing_taper_ratio t) (J_wing_characteristic_length__names_croot wing_taper_ratio) names_croot := by
  simp only [out_wing_characteristic_length, J_wing_characteristic_length__names_croot, g, a, length]
  (apply hasDerivAt_of_eq; on_goal 1 => (repeat' comp_step))
  all_goals try comp_side
  all_goals try simp only [mul_zero, zero_mul, add_zero, zero_add, sub_zero, zero_sub, mul_one, one_mul]
  all_goals try push_cast
  all_goals comp_eq

theorem d_wing_fineness__wing_thickness_to_chord (wing_thickness_to_chord : ℝ)  :
    HasDerivAt (fun t => out_wing_fineness t) (J_wing_fineness__wing_thickness_to_chord) wing_thickness_to_chord := by
  simp only [out_wing_fineness, J_wing_fineness__wing_thickness_to_chord]
  (apply hasDerivAt_of_eq; on_goal 1 => (repeat' comp_step))
  all_goals try comp_side
  all_goals try simp only [mul_zero, zero_mul, add_zero, zero_add, sub_zero, zero_sub, mul_one, one_mul]
  all_goals try push_cast
  all_goals comp_eq

/-- Every partial derivative set by `WingCharacteristicLength` is the derivative of its output. -/
theorem partials (wing_taper_ratio names_croot wing_thickness_to_chord : ℝ) (h0 : 0 <
    wing_taper_ratio) :
    HasDerivAt (fun t => out_wing_characteristic_length t names_croot)
      (J_wing_characteristic_length__wing_taper_ratio wing_taper_ratio names_croot)
      wing_taper_ratio ∧
    HasDerivAt (fun t => out_wing_characteristic_length wing_taper_ratio t)
      (J_wing_characteristic_length__names_croot wing_taper_ratio) names_croot ∧
    HasDerivAt (fun t => out_wing_fineness t) (J_wing_fineness__wing_thickness_to_chord)
      wing_thickness_to_chord :=
  ⟨d_wing_characteristic_length__wing_taper_ratio _ _ h0,
    d_wing_characteristic_length__names_croot _ _ h0, d_wing_fineness__wing_thickness_to_chord _⟩

example : ∃ wing_taper_ratio names_croot wing_thickness_to_chord : ℝ,
      0 < wing_taper_ratio :=
  ⟨1, 0, 0, by comp_example⟩

end Verif.Comp.GeometryFlopsBasedCharacteristicLengths.WingCharacteristicLength_wingspanefficiencyreduction

namespace Verif.Comp.GeometryFlopsBasedCharacteristicLengths.WingCharacteristicLength_no_wingspanefficiencyreduction
open Real

/-- aviary/subsystems/geometry/flops_based/characteristic_lengths.py:60 -/
noncomputable def length (wing_area wing_glove_and_bat wing_aspect_ratio : ℝ) : ℝ :=
  ((wing_area - wing_glove_and_bat) / wing_aspect_ratio) ^ ((1 / 2) : ℝ)

/-- aviary/subsystems/geometry/flops_based/characteristic_lengths.py:90 -/
noncomputable def a (wing_area wing_glove_and_bat : ℝ) : ℝ := wing_area - wing_glove_and_bat

/-- aviary/subsystems/geometry/flops_based/characteristic_lengths.py:91 -/
noncomputable def f (wing_area wing_glove_and_bat wing_aspect_ratio : ℝ) : ℝ :=
  (1 / 2) * (((a wing_area wing_glove_and_bat) / wing_aspect_ratio) ^ ((-(1 / 2)) : ℝ))

/-- aviary/subsystems/geometry/flops_based/characteristic_lengths.py:92 -/
noncomputable def df (wing_area wing_glove_and_bat wing_aspect_ratio : ℝ) : ℝ :=
  (f wing_area wing_glove_and_bat wing_aspect_ratio) / wing_aspect_ratio

/-- Output `wing_characteristic_length` of `WingCharacteristicLength.compute`, aviary/subsystems/geometry/flops_based/characteristic_lengths.py:62 -/
noncomputable def out_wing_characteristic_length (wing_area wing_glove_and_bat wing_aspect_ratio : ℝ) : ℝ :=
  length wing_area wing_glove_and_bat wing_aspect_ratio

/-- Output `wing_fineness` of `WingCharacteristicLength.compute`, aviary/subsystems/geometry/flops_based/characteristic_lengths.py:66 -/
noncomputable def out_wing_fineness (wing_thickness_to_chord : ℝ) : ℝ := wing_thickness_to_chord

/-- Partial of `wing_fineness` with respect to `wing_thickness_to_chord` as set by `WingCharacteristicLength`, aviary/subsystems/geometry/flops_based/characteristic_lengths.py:45 -/
noncomputable def J_wing_fineness__wing_thickness_to_chord : ℝ := 1

/-- Partial of `wing_characteristic_length` with respect to `wing_area` as set by `WingCharacteristicLength`, aviary/subsystems/geometry/flops_based/characteristic_lengths.py:94 -/
noncomputable def J_wing_characteristic_length__wing_area (wing_area wing_glove_and_bat wing_aspect_ratio : ℝ) : ℝ :=
  df wing_area wing_glove_and_bat wing_aspect_ratio

/-- Partial of `wing_characteristic_length` with respect to `wing_glove_and_bat` as set by `WingCharacteristicLength`, aviary/subsystems/geometry/flops_based/characteristic_lengths.py:96 -/
noncomputable def J_wing_characteristic_length__wing_glove_and_bat (wing_area wing_glove_and_bat wing_aspect_ratio : ℝ) : ℝ :=
  -(df wing_area wing_glove_and_bat wing_aspect_ratio)

/-- Partial of `wing_characteristic_length` with respect to `wing_aspect_ratio` as set by `WingCharacteristicLength`, aviary/subsystems/geometry/flops_based/characteristic_lengths.py:98 -/
noncomputable def J_wing_characteristic_length__wing_aspect_ratio (wing_area wing_glove_and_bat wing_aspect_ratio : ℝ) : ℝ :=
  ((-(f wing_area wing_glove_and_bat wing_aspect_ratio)) * (a wing_area wing_glove_and_bat)) /
    (wing_aspect_ratio ^ 2)

theorem d_wing_characteristic_length__wing_area (wing_area wing_glove_and_bat wing_aspect_ratio :
    ℝ) (h0 : 0 < wing_aspect_ratio) (h1 : 0 < wing_area - wing_glove_and_bat) :
    HasDerivAt (fun t => out_wing_characteristic_length t wing_glove_and_bat wing_aspect_ratio) (J_wing_characteristic_length__wing_area wing_area wing_glove_and_bat wing_aspect_ratio) wing_area := by
  have e0 : ∀ x : ℝ, 0 < x → x ^ ((-(1 / 2)) : ℝ) = x ^ ((1 / 2) : ℝ) / x ^ 1 := fun x hx => rpow_down hx 1 (by norm_num)
  simp only [out_wing_characteristic_length, J_wing_characteristic_length__wing_area, df, f, a, length]
  (apply hasDerivAt_of_eq; on_goal 1 => (repeat' comp_step))
  all_goals try comp_side
  all_goals try simp (disch := first | assumption | positivity) only [e0, div_mul_eq_div_div, div_half, inv_half]
  all_goals try simp only [mul_zero, zero_mul, add_zero, zero_add, sub_zero, zero_sub, mul_one, one_mul]
  all_goals try push_cast
  all_goals comp_eq

theorem d_wing_characteristic_length__wing_glove_and_bat (wing_area wing_glove_and_bat
    wing_aspect_ratio : ℝ) (h0 : 0 < wing_aspect_ratio) (h1 : 0 < wing_area - wing_glove_and_bat)
    :
    HasDerivAt (fun t => out_wing_characteristic_length wing_area t wing_aspect_ratio) (J_wing_characteristic_length__wing_glove_and_bat wing_area wing_glove_and_bat wing_aspect_ratio) wing_glove_and_bat := by
  have e0 : ∀ x : ℝ, 0 < x → x ^ ((-(1 / 2)) : ℝ) = x ^ ((1 / 2) : ℝ) / x ^ 1 := fun x hx => rpow_down hx 1 (by norm_num)
  simp only [out_wing_characteristic_length, J_wing_characteristic_length__wing_glove_and_bat, df, f, a, length]
  (apply hasDerivAt_of_eq; on_goal 1 => (repeat' comp_step))
  all_goals try comp_side
  all_goals try simp (disch := first | assumption | positivity) only [e0, div_mul_eq_div_div, div_half, inv_half]
  all_goals try simp only [mul_zero, zero_mul, add_zero, zero_add, sub_zero, zero_sub, mul_one, one_mul]
  all_goals try push_cast
  all_goals comp_eq

theorem d_wing_characteristic_length__wing_aspect_ratio (wing_area wing_glove_and_bat
    wing_aspect_ratio : ℝ) (h0 : 0 < wing_aspect_ratio) (h1 : 0 < wing_area - wing_glove_and_bat)
    :
    HasDerivAt (fun t => out_wing_characteristic_length wing_area wing_glove_and_bat t) (J_wing_characteristic_length__wing_aspect_ratio wing_area wing_glove_and_bat wing_aspect_ratio) wing_aspect_ratio := by
  have e0 : ∀ x : ℝ, 0 < x → x ^ ((-(1 / 2)) : ℝ) = x ^ ((1 / 2) : ℝ) / x ^ 1 := fun x hx => rpow_down hx 1 (by norm_num)
  simp only [out_wing_characteristic_length, J_wing_characteristic_length__wing_aspect_ratio, f, a, length]
  (apply hasDerivAt_of_eq; on_goal 1 => (repeat' comp_step))
  all_goals try comp_side
  all_goals try simp (disch := first | assumption | positivity) only [e0, div_mul_eq_div_div, div_half, inv_half]
  all_goals try simp only [mul_zero, zero_mul, add_zero, zero_add, sub_zero, zero_sub, mul_one, one_mul]
  all_goals try push_cast
  all_goals comp_eq

theorem d_wing_fineness__wing_thickness_to_chord (wing_thickness_to_chord : ℝ)  :
    HasDerivAt (fun t => out_wing_fineness t) (J_wing_fineness__wing_thickness_to_chord) wing_thickness_to_chord := by
  simp only [out_wing_fineness, J_wing_fineness__wing_thickness_to_chord]
  (apply hasDerivAt_of_eq; on_goal 1 => (repeat' comp_step))
  all_goals try comp_side
  all_goals try simp only [mul_zero, zero_mul, add_zero, zero_add, sub_zero, zero_sub, mul_one, one_mul]
  all_goals try push_cast
  all_goals comp_eq

/-- Every partial derivative set by `WingCharacteristicLength` is the derivative of its output. -/
theorem partials (wing_area wing_glove_and_bat wing_aspect_ratio wing_thickness_to_chord : ℝ) (h0
    : 0 < wing_aspect_ratio) (h1 : 0 < wing_area - wing_glove_and_bat) :
    HasDerivAt (fun t => out_wing_characteristic_length t wing_glove_and_bat wing_aspect_ratio)
      (J_wing_characteristic_length__wing_area wing_area wing_glove_and_bat wing_aspect_ratio)
      wing_area ∧
    HasDerivAt (fun t => out_wing_characteristic_length wing_area t wing_aspect_ratio)
      (J_wing_characteristic_length__wing_glove_and_bat wing_area wing_glove_and_bat
      wing_aspect_ratio) wing_glove_and_bat ∧
    HasDerivAt (fun t => out_wing_characteristic_length wing_area wing_glove_and_bat t)
      (J_wing_characteristic_length__wing_aspect_ratio wing_area wing_glove_and_bat
      wing_aspect_ratio) wing_aspect_ratio ∧
    HasDerivAt (fun t => out_wing_fineness t) (J_wing_fineness__wing_thickness_to_chord)
      wing_thickness_to_chord :=
  ⟨d_wing_characteristic_length__wing_area _ _ _ h0 h1,
    d_wing_characteristic_length__wing_glove_and_bat _ _ _ h0 h1,
    d_wing_characteristic_length__wing_aspect_ratio _ _ _ h0 h1,
    d_wing_fineness__wing_thickness_to_chord _⟩

example : ∃ wing_area wing_glove_and_bat wing_aspect_ratio wing_thickness_to_chord : ℝ,
      0 < wing_aspect_ratio ∧
      0 < wing_area - wing_glove_and_bat :=
  ⟨1, 0, 1, 1, by comp_example, by comp_example⟩

end Verif.Comp.GeometryFlopsBasedCharacteristicLengths.WingCharacteristicLength_no_wingspanefficiencyreduction

