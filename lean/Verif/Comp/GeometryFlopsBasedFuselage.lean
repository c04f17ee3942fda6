import Verif.Lemmas.CompDeriv

/-! # Partial derivatives of the components of `aviary/subsystems/geometry/flops_based/fuselage.py`

One node of a vector component is modelled over the real numbers.  Each option that selects a
branch is fixed, one namespace per choice.  `out_x` is the output `x`, `J_x__y` the entry that
`compute_partials` (or `declare_partials` with `val`) assigns, `d_x__y` the proof that the entry is
the derivative.  Inputs an output does not take as argument have no influence on it.

* `BWBFuselagePrelim`: line 95: raise branch excluded

* `FuselagePrelim`: line 43: raise branch excluded

* `SimpleCabinLayout`: line 142: raise branch excluded
* `SimpleCabinLayout`: line 148: raise branch excluded -/

set_option linter.all false

namespace Verif.Comp.GeometryFlopsBasedFuselage.BWBFuselagePrelim
open Real

/-- aviary/subsystems/geometry/flops_based/fuselage.py:100 -/
noncomputable def ref_diameter (fuselage_max_width fuselage_max_height : ℝ) : ℝ :=
  (1 / 2) * (fuselage_max_height + fuselage_max_width)

/-- aviary/subsystems/geometry/flops_based/fuselage.py:101 -/
noncomputable def planform_area (fuselage_max_width fuselage_length wing_root_chord : ℝ) : ℝ :=
  (fuselage_max_width * (fuselage_length + wing_root_chord)) / 2

/-- Output `fuselage_ref_diameter` of `BWBFuselagePrelim.compute`, aviary/subsystems/geometry/flops_based/fuselage.py:103 -/
noncomputable def out_fuselage_ref_diameter (fuselage_max_width fuselage_max_height : ℝ) : ℝ :=
  ref_diameter fuselage_max_width fuselage_max_height

/-- Output `fuselage_planform_area` of `BWBFuselagePrelim.compute`, aviary/subsystems/geometry/flops_based/fuselage.py:104 -/
noncomputable def out_fuselage_planform_area (fuselage_max_width fuselage_length wing_root_chord : ℝ) : ℝ :=
  planform_area fuselage_max_width fuselage_length wing_root_chord

/-- Partial of `fuselage_ref_diameter` with respect to `fuselage_max_height` as set by `BWBFuselagePrelim`, aviary/subsystems/geometry/flops_based/fuselage.py:75 -/
noncomputable def J_fuselage_ref_diameter__fuselage_max_height : ℝ := 1 / 2

/-- Partial of `fuselage_ref_diameter` with respect to `fuselage_max_width` as set by `BWBFuselagePrelim`, aviary/subsystems/geometry/flops_based/fuselage.py:75 -/
noncomputable def J_fuselage_ref_diameter__fuselage_max_width : ℝ := 1 / 2

/-- Partial of `fuselage_planform_area` with respect to `fuselage_length` as set by `BWBFuselagePrelim`, aviary/subsystems/geometry/flops_based/fuselage.py:111 -/
noncomputable def J_fuselage_planform_area__fuselage_length (fuselage_max_width : ℝ) : ℝ :=
  fuselage_max_width / 2

/-- Partial of `fuselage_planform_area` with respect to `fuselage_max_width` as set by `BWBFuselagePrelim`, aviary/subsystems/geometry/flops_based/fuselage.py:112 -/
noncomputable def J_fuselage_planform_area__fuselage_max_width (fuselage_length wing_root_chord : ℝ) : ℝ :=
  (fuselage_length + wing_root_chord) / 2

/-- Partial of `fuselage_planform_area` with respect to `wing_root_chord` as set by `BWBFuselagePrelim`, aviary/subsystems/geometry/flops_based/fuselage.py:115 -/
noncomputable def J_fuselage_planform_area__wing_root_chord (fuselage_max_width : ℝ) : ℝ :=
  fuselage_max_width / 2

theorem d_fuselage_ref_diameter__fuselage_max_width (fuselage_max_width fuselage_max_height : ℝ)
    :
    HasDerivAt (fun t => out_fuselage_ref_diameter t fuselage_max_height) (J_fuselage_ref_diameter__fuselage_max_width) fuselage_max_width := by
  simp only [out_fuselage_ref_diameter, J_fuselage_ref_diameter__fuselage_max_width, ref_diameter]
  (apply hasDerivAt_of_eq; on_goal 1 => (repeat' comp_step))
  all_goals try comp_side
  all_goals try simp only [mul_zero, zero_mul, add_zero, zero_add, sub_zero, zero_sub, mul_one, one_mul]
  all_goals try push_cast
  all_goals comp_eq

theorem d_fuselage_ref_diameter__fuselage_max_height (fuselage_max_width fuselage_max_height : ℝ)
    :
    HasDerivAt (fun t => out_fuselage_ref_diameter fuselage_max_width t) (J_fuselage_ref_diameter__fuselage_max_height) fuselage_max_height := by
  simp only [out_fuselage_ref_diameter, J_fuselage_ref_diameter__fuselage_max_height, ref_diameter]
  (apply hasDerivAt_of_eq; on_goal 1 => (repeat' comp_step))
  all_goals try comp_side
  all_goals try simp only [mul_zero, zero_mul, add_zero, zero_add, sub_zero, zero_sub, mul_one, one_mul]
  all_goals try push_cast
  all_goals comp_eq

theorem d_fuselage_planform_area__fuselage_max_width (fuselage_max_width fuselage_length
    wing_root_chord : ℝ)  :
    HasDerivAt (fun t => out_fuselage_planform_area t fuselage_length wing_root_chord) (J_fuselage_planform_area__fuselage_max_width fuselage_length wing_root_chord) fuselage_max_width := by
  simp only [out_fuselage_planform_area, J_fuselage_planform_area__fuselage_max_width, planform_area]
  (apply hasDerivAt_of_eq; on_goal 1 => (repeat' comp_step))
  all_goals try comp_side
  all_goals try simp only [mul_zero, zero_mul, add_zero, zero_add, sub_zero, zero_sub, mul_one, one_mul]
  all_goals try push_cast
  all_goals comp_eq

theorem d_fuselage_planform_area__fuselage_length (fuselage_max_width fuselage_length
    wing_root_chord : ℝ)  :
    HasDerivAt (fun t => out_fuselage_planform_area fuselage_max_width t wing_root_chord) (J_fuselage_planform_area__fuselage_length fuselage_max_width) fuselage_length := by
  simp only [out_fuselage_planform_area, J_fuselage_planform_area__fuselage_length, planform_area]
  (apply hasDerivAt_of_eq; on_goal 1 => (repeat' comp_step))
  all_goals try comp_side
  all_goals try simp only [mul_zero, zero_mul, add_zero, zero_add, sub_zero, zero_sub, mul_one, one_mul]
  all_goals try push_cast
  all_goals comp_eq

theorem d_fuselage_planform_area__wing_root_chord (fuselage_max_width fuselage_length
    wing_root_chord : ℝ)  :
    HasDerivAt (fun t => out_fuselage_planform_area fuselage_max_width fuselage_length t) (J_fuselage_planform_area__wing_root_chord fuselage_max_width) wing_root_chord := by
  simp only [out_fuselage_planform_area, J_fuselage_planform_area__wing_root_chord, planform_area]
  (apply hasDerivAt_of_eq; on_goal 1 => (repeat' comp_step))
  all_goals try comp_side
  all_goals try simp only [mul_zero, zero_mul, add_zero, zero_add, sub_zero, zero_sub, mul_one, one_mul]
  all_goals try push_cast
  all_goals comp_eq

/-- Every partial derivative set by `BWBFuselagePrelim` is the derivative of its output. -/
theorem partials (fuselage_max_width fuselage_length fuselage_max_height wing_root_chord : ℝ) :
    HasDerivAt (fun t => out_fuselage_ref_diameter t fuselage_max_height)
      (J_fuselage_ref_diameter__fuselage_max_width) fuselage_max_width ∧
    HasDerivAt (fun t => out_fuselage_ref_diameter fuselage_max_width t)
      (J_fuselage_ref_diameter__fuselage_max_height) fuselage_max_height ∧
    HasDerivAt (fun t => out_fuselage_planform_area t fuselage_length wing_root_chord)
      (J_fuselage_planform_area__fuselage_max_width fuselage_length wing_root_chord)
      fuselage_max_width ∧
    HasDerivAt (fun t => out_fuselage_planform_area fuselage_max_width t wing_root_chord)
      (J_fuselage_planform_area__fuselage_length fuselage_max_width) fuselage_length ∧
    HasDerivAt (fun t => out_fuselage_planform_area fuselage_max_width fuselage_length t)
      (J_fuselage_planform_area__wing_root_chord fuselage_max_width) wing_root_chord :=
  ⟨d_fuselage_ref_diameter__fuselage_max_width _ _, d_fuselage_ref_diameter__fuselage_max_height _
    _, d_fuselage_planform_area__fuselage_max_width _ _ _,
    d_fuselage_planform_area__fuselage_length _ _ _, d_fuselage_planform_area__wing_root_chord _ _
    _⟩

end Verif.Comp.GeometryFlopsBasedFuselage.BWBFuselagePrelim

namespace Verif.Comp.GeometryFlopsBasedFuselage.FuselagePrelim
open Real

/-- aviary/subsystems/geometry/flops_based/fuselage.py:48 -/
noncomputable def ref_diameter (fuselage_max_height fuselage_max_width : ℝ) : ℝ :=
  (1 / 2) * (fuselage_max_height + fuselage_max_width)

/-- Output `fuselage_ref_diameter` of `FuselagePrelim.compute`, aviary/subsystems/geometry/flops_based/fuselage.py:49 -/
noncomputable def out_fuselage_ref_diameter (fuselage_max_height fuselage_max_width : ℝ) : ℝ :=
  ref_diameter fuselage_max_height fuselage_max_width

/-- Output `fuselage_planform_area` of `FuselagePrelim.compute`, aviary/subsystems/geometry/flops_based/fuselage.py:51 -/
noncomputable def out_fuselage_planform_area (fuselage_max_width fuselage_length : ℝ) : ℝ :=
  fuselage_length * fuselage_max_width

/-- Partial of `fuselage_ref_diameter` with respect to `fuselage_max_height` as set by `FuselagePrelim`, aviary/subsystems/geometry/flops_based/fuselage.py:29 -/
noncomputable def J_fuselage_ref_diameter__fuselage_max_height : ℝ := 1 / 2

/-- Partial of `fuselage_ref_diameter` with respect to `fuselage_max_width` as set by `FuselagePrelim`, aviary/subsystems/geometry/flops_based/fuselage.py:29 -/
noncomputable def J_fuselage_ref_diameter__fuselage_max_width : ℝ := 1 / 2

/-- Partial of `fuselage_planform_area` with respect to `fuselage_length` as set by `FuselagePrelim`, aviary/subsystems/geometry/flops_based/fuselage.py:57 -/
noncomputable def J_fuselage_planform_area__fuselage_length (fuselage_max_width : ℝ) : ℝ :=
  fuselage_max_width

/-- Partial of `fuselage_planform_area` with respect to `fuselage_max_width` as set by `FuselagePrelim`, aviary/subsystems/geometry/flops_based/fuselage.py:59 -/
noncomputable def J_fuselage_planform_area__fuselage_max_width (fuselage_length : ℝ) : ℝ :=
  fuselage_length

theorem d_fuselage_ref_diameter__fuselage_max_height (fuselage_max_height fuselage_max_width : ℝ)
    :
    HasDerivAt (fun t => out_fuselage_ref_diameter t fuselage_max_width) (J_fuselage_ref_diameter__fuselage_max_height) fuselage_max_height := by
  simp only [out_fuselage_ref_diameter, J_fuselage_ref_diameter__fuselage_max_height, ref_diameter]
  (apply hasDerivAt_of_eq; on_goal 1 => (repeat' comp_step))
  all_goals try comp_side
  all_goals try simp only [mul_zero, zero_mul, add_zero, zero_add, sub_zero, zero_sub, mul_one, one_mul]
  all_goals try push_cast
  all_goals comp_eq

theorem d_fuselage_ref_diameter__fuselage_max_width (fuselage_max_height fuselage_max_width : ℝ)
    :
    HasDerivAt (fun t => out_fuselage_ref_diameter fuselage_max_height t) (J_fuselage_ref_diameter__fuselage_max_width) fuselage_max_width := by
  simp only [out_fuselage_ref_diameter, J_fuselage_ref_diameter__fuselage_max_width, ref_diameter]
  (apply hasDerivAt_of_eq; on_goal 1 => (repeat' comp_step))
  all_goals try comp_side
  all_goals try simp only [mul_zero, zero_mul, add_zero, zero_add, sub_zero, zero_sub, mul_one, one_mul]
  all_goals try push_cast
  all_goals comp_eq

theorem d_fuselage_planform_area__fuselage_max_width (fuselage_max_width fuselage_length : ℝ)  :
    HasDerivAt (fun t => out_fuselage_planform_area t fuselage_length) (J_fuselage_planform_area__fuselage_max_width fuselage_length) fuselage_max_width := by
  simp only [out_fuselage_planform_area, J_fuselage_planform_area__fuselage_max_width]
  (apply hasDerivAt_of_eq; on_goal 1 => (repeat' comp_step))
  all_goals try comp_side
  all_goals try simp only [mul_zero, zero_mul, add_zero, zero_add, sub_zero, zero_sub, mul_one, one_mul]
  all_goals try push_cast
  all_goals comp_eq

theorem d_fuselage_planform_area__fuselage_length (fuselage_max_width fuselage_length : ℝ)  :
    HasDerivAt (fun t => out_fuselage_planform_area fuselage_max_width t) (J_fuselage_planform_area__fuselage_length fuselage_max_width) fuselage_length := by
  simp only [out_fuselage_planform_area, J_fuselage_planform_area__fuselage_length]
  (apply hasDerivAt_of_eq; on_goal 1 => (repeat' comp_step))
  all_goals try comp_side
  all_goals try simp only [mul_zero, zero_mul, add_zero, zero_add, sub_zero, zero_sub, mul_one, one_mul]
  all_goals try push_cast
  all_goals comp_eq

/-- Every partial derivative set by `FuselagePrelim` is the derivative of its output. -/
theorem partials (fuselage_max_height fuselage_max_width fuselage_length : ℝ) :
    HasDerivAt (fun t => out_fuselage_ref_diameter t fuselage_max_width)
      (J_fuselage_ref_diameter__fuselage_max_height) fuselage_max_height ∧
    HasDerivAt (fun t => out_fuselage_ref_diameter fuselage_max_height t)
      (J_fuselage_ref_diameter__fuselage_max_width) fuselage_max_width ∧
    HasDerivAt (fun t => out_fuselage_planform_area t fuselage_length)
      (J_fuselage_planform_area__fuselage_max_width fuselage_length) fuselage_max_width ∧
    HasDerivAt (fun t => out_fuselage_planform_area fuselage_max_width t)
      (J_fuselage_planform_area__fuselage_length fuselage_max_width) fuselage_length :=
  ⟨d_fuselage_ref_diameter__fuselage_max_height _ _, d_fuselage_ref_diameter__fuselage_max_width _
    _, d_fuselage_planform_area__fuselage_max_width _ _, d_fuselage_planform_area__fuselage_length
    _ _⟩

end Verif.Comp.GeometryFlopsBasedFuselage.FuselagePrelim

namespace Verif.Comp.GeometryFlopsBasedFuselage.SimpleCabinLayout
open Real

/-- aviary/subsystems/geometry/flops_based/fuselage.py:147 -/
noncomputable def pax_compart_length (fuselage_length : ℝ) : ℝ :=
  ((1217 / 2000) * fuselage_length) * ((arctan (fuselage_length / 59)) ^ ((11 / 10) : ℝ))

/-- aviary/subsystems/geometry/flops_based/fuselage.py:159 -/
noncomputable def atan (fuselage_length : ℝ) : ℝ := arctan (fuselage_length / 59)

/-- aviary/subsystems/geometry/flops_based/fuselage.py:160 -/
noncomputable def deriv (fuselage_length : ℝ) : ℝ :=
  (1217 / 2000) * (((atan fuselage_length) ^ ((11 / 10) : ℝ)) + (((((11 / 10) * fuselage_length)
    * ((atan fuselage_length) ^ ((1 / 10) : ℝ))) / (1 + ((fuselage_length / 59) ^ 2))) / 59))

/-- Output `fuselage_passenger_compartment_length` of `SimpleCabinLayout.compute`, aviary/subsystems/geometry/flops_based/fuselage.py:155 -/
noncomputable def out_fuselage_passenger_compartment_length (fuselage_length : ℝ) : ℝ :=
  pax_compart_length fuselage_length

/-- Partial of `fuselage_passenger_compartment_length` with respect to `fuselage_length` as set by `SimpleCabinLayout`, aviary/subsystems/geometry/flops_based/fuselage.py:163 -/
noncomputable def J_fuselage_passenger_compartment_length__fuselage_length (fuselage_length : ℝ) : ℝ :=
  deriv fuselage_length

theorem d_fuselage_passenger_compartment_length__fuselage_length (fuselage_length : ℝ) (h0 : 0 <
    arctan (fuselage_length / 59)) (h1 : 0 < fuselage_length) :
    HasDerivAt (fun t => out_fuselage_passenger_compartment_length t) (J_fuselage_passenger_compartment_length__fuselage_length fuselage_length) fuselage_length := by
  have e0 : ∀ x : ℝ, 0 < x → x ^ ((11 / 10) : ℝ) = x ^ ((1 / 10) : ℝ) * x ^ 1 := fun x hx => rpow_up hx 1 (by norm_num)
  simp only [out_fuselage_passenger_compartment_length, J_fuselage_passenger_compartment_length__fuselage_length, deriv, atan, pax_compart_length]
  (apply hasDerivAt_of_eq; on_goal 1 => (repeat' comp_step))
  all_goals try comp_side
  all_goals try simp (disch := first | assumption | positivity) only [e0]
  all_goals try simp only [mul_zero, zero_mul, add_zero, zero_add, sub_zero, zero_sub, mul_one, one_mul]
  all_goals try push_cast
  all_goals comp_eq

/-- Every partial derivative set by `SimpleCabinLayout` is the derivative of its output. -/
theorem partials (fuselage_length : ℝ) (h0 : 0 < arctan (fuselage_length / 59)) (h1 : 0 <
    fuselage_length) :
    HasDerivAt (fun t => out_fuselage_passenger_compartment_length t)
      (J_fuselage_passenger_compartment_length__fuselage_length fuselage_length) fuselage_length :=
  d_fuselage_passenger_compartment_length__fuselage_length _ h0 h1

example : ∃ fuselage_length : ℝ,
      0 < arctan (fuselage_length / 59) ∧
      0 < fuselage_length :=
  ⟨1, by comp_example, by comp_example⟩

end Verif.Comp.GeometryFlopsBasedFuselage.SimpleCabinLayout

