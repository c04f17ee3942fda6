import Verif.Lemmas.CompDeriv

/-! # Partial derivatives of the components of `aviary/subsystems/aerodynamics/gasp_based/gasp_aero_coeffs.py`

One node of a vector component is modelled over the real numbers.  Each option that selects a
branch is fixed, one namespace per choice.  `out_x` is the output `x`, `J_x__y` the entry that
`compute_partials` (or `declare_partials` with `val`) assigns, `d_x__y` the proof that the entry is
the derivative.  Inputs an output does not take as argument have no influence on it. -/

set_option linter.all false

namespace Verif.Comp.AerodynamicsGaspBasedGaspAeroCoeffs.AeroFormfactors
open Real

/-- aviary/subsystems/aerodynamics/gasp_based/gasp_aero_coeffs.py:88 -/
noncomputable def ckw (wing_thickness_to_chord_unweighted wing_sweep design_mach : ℝ) : ℝ :=
  (51 / 25) * ((1 + (((wing_thickness_to_chord_unweighted * (2 - (design_mach ^ 2))) * (cos
    wing_sweep)) / (sqrt (1 - ((design_mach ^ 2) * ((cos wing_sweep) ^ 2)))))) + (100 *
    (wing_thickness_to_chord_unweighted ^ 4)))

/-- aviary/subsystems/aerodynamics/gasp_based/gasp_aero_coeffs.py:98 -/
noncomputable def ckvt (verticaltail_thickness_to_chord verticaltail_sweep design_mach : ℝ) : ℝ :=
  (51 / 25) * ((1 + (((verticaltail_thickness_to_chord * (2 - (design_mach ^ 2))) * (cos
    verticaltail_sweep)) / (sqrt (1 - ((design_mach ^ 2) * ((cos verticaltail_sweep) ^ 2)))))) +
    (100 * (verticaltail_thickness_to_chord ^ 4)))

/-- aviary/subsystems/aerodynamics/gasp_based/gasp_aero_coeffs.py:110 -/
noncomputable def ckht (horizontaltail_thickness_to_chord horizontaltail_sweep horizontaltail_vertical_tail_mount_location design_mach : ℝ) : ℝ :=
  ((51 / 25) * ((1 + (((horizontaltail_thickness_to_chord * (2 - (design_mach ^ 2))) * (cos
    horizontaltail_sweep)) / (sqrt (1 - ((design_mach ^ 2) * ((cos horizontaltail_sweep) ^
    2)))))) + (100 * (horizontaltail_thickness_to_chord ^ 4)))) * (1 + ((1 / 20) * (1 -
    horizontaltail_vertical_tail_mount_location)))

/-- aviary/subsystems/aerodynamics/gasp_based/gasp_aero_coeffs.py:123 -/
noncomputable def ckstrt (strut_thickness_to_chord design_mach : ℝ) : ℝ :=
  (51 / 25) * ((1 + ((strut_thickness_to_chord * (2 - (design_mach ^ 2))) / (sqrt (1 -
    (design_mach ^ 2))))) + (100 * (strut_thickness_to_chord ^ 4)))

/-- aviary/subsystems/aerodynamics/gasp_based/gasp_aero_coeffs.py:129 -/
noncomputable def ckn (nacelle_avg_diameter nacelle_avg_length : ℝ) : ℝ :=
  (3 / 2) * (1 + ((7 / 20) / (nacelle_avg_length / nacelle_avg_diameter)))

/-- aviary/subsystems/aerodynamics/gasp_based/gasp_aero_coeffs.py:141 -/
noncomputable def cos1 (wing_sweep : ℝ) : ℝ := cos wing_sweep

/-- aviary/subsystems/aerodynamics/gasp_based/gasp_aero_coeffs.py:142 -/
noncomputable def a1 (wing_sweep design_mach : ℝ) : ℝ :=
  sqrt (1 - ((design_mach ^ 2) * ((cos1 wing_sweep) ^ 2)))

/-- aviary/subsystems/aerodynamics/gasp_based/gasp_aero_coeffs.py:153 -/
noncomputable def cos2 (verticaltail_sweep : ℝ) : ℝ := cos verticaltail_sweep

/-- aviary/subsystems/aerodynamics/gasp_based/gasp_aero_coeffs.py:154 -/
noncomputable def a2 (verticaltail_sweep design_mach : ℝ) : ℝ :=
  sqrt (1 - ((design_mach ^ 2) * ((cos2 verticaltail_sweep) ^ 2)))

/-- aviary/subsystems/aerodynamics/gasp_based/gasp_aero_coeffs.py:165 -/
noncomputable def cos3 (horizontaltail_sweep : ℝ) : ℝ := cos horizontaltail_sweep

/-- aviary/subsystems/aerodynamics/gasp_based/gasp_aero_coeffs.py:166 -/
noncomputable def a3 (horizontaltail_sweep design_mach : ℝ) : ℝ :=
  sqrt (1 - ((design_mach ^ 2) * ((cos3 horizontaltail_sweep) ^ 2)))

/-- aviary/subsystems/aerodynamics/gasp_based/gasp_aero_coeffs.py:189 -/
noncomputable def a4 (design_mach : ℝ) : ℝ := sqrt (1 - (design_mach ^ 2))

/-- Output `wing_form_factor` of `AeroFormfactors.compute`, aviary/subsystems/aerodynamics/gasp_based/gasp_aero_coeffs.py:131 -/
noncomputable def out_wing_form_factor (wing_thickness_to_chord_unweighted wing_sweep design_mach : ℝ) : ℝ :=
  ckw wing_thickness_to_chord_unweighted wing_sweep design_mach

/-- Output `verticaltail_form_factor` of `AeroFormfactors.compute`, aviary/subsystems/aerodynamics/gasp_based/gasp_aero_coeffs.py:133 -/
noncomputable def out_verticaltail_form_factor (verticaltail_thickness_to_chord verticaltail_sweep design_mach : ℝ) : ℝ :=
  ckvt verticaltail_thickness_to_chord verticaltail_sweep design_mach

/-- Output `horizontaltail_form_factor` of `AeroFormfactors.compute`, aviary/subsystems/aerodynamics/gasp_based/gasp_aero_coeffs.py:134 -/
noncomputable def out_horizontaltail_form_factor (horizontaltail_thickness_to_chord horizontaltail_sweep horizontaltail_vertical_tail_mount_location design_mach : ℝ) : ℝ :=
  ckht horizontaltail_thickness_to_chord horizontaltail_sweep
    horizontaltail_vertical_tail_mount_location design_mach

/-- Output `strut_fuselage_interference_factor` of `AeroFormfactors.compute`, aviary/subsystems/aerodynamics/gasp_based/gasp_aero_coeffs.py:135 -/
noncomputable def out_strut_fuselage_interference_factor (strut_thickness_to_chord design_mach : ℝ) : ℝ :=
  ckstrt strut_thickness_to_chord design_mach

/-- Output `nacelle_form_factor` of `AeroFormfactors.compute`, aviary/subsystems/aerodynamics/gasp_based/gasp_aero_coeffs.py:136 -/
noncomputable def out_nacelle_form_factor (nacelle_avg_diameter nacelle_avg_length : ℝ) : ℝ :=
  ckn nacelle_avg_diameter nacelle_avg_length

/-- Partial of `wing_form_factor` with respect to `wing_thickness_to_chord_unweighted` as set by `AeroFormfactors`, aviary/subsystems/aerodynamics/gasp_based/gasp_aero_coeffs.py:143 -/
noncomputable def J_wing_form_factor__wing_thickness_to_chord_unweighted (wing_thickness_to_chord_unweighted wing_sweep design_mach : ℝ) : ℝ :=
  (51 / 25) * ((((2 - (design_mach ^ 2)) * (cos1 wing_sweep)) / (a1 wing_sweep design_mach)) +
    (400 * (wing_thickness_to_chord_unweighted ^ 3)))

/-- Partial of `wing_form_factor` with respect to `design_mach` as set by `AeroFormfactors`, aviary/subsystems/aerodynamics/gasp_based/gasp_aero_coeffs.py:146 -/
noncomputable def J_wing_form_factor__design_mach (wing_thickness_to_chord_unweighted wing_sweep design_mach : ℝ) : ℝ :=
  ((-(51 / 25)) * ((wing_thickness_to_chord_unweighted * design_mach) * (cos1 wing_sweep))) *
    (((((a1 wing_sweep design_mach) ^ 2) + 1) - (2 * ((cos1 wing_sweep) ^ 2))) / ((a1 wing_sweep
    design_mach) ^ 3))

/-- Partial of `wing_form_factor` with respect to `wing_sweep` as set by `AeroFormfactors`, aviary/subsystems/aerodynamics/gasp_based/gasp_aero_coeffs.py:149 -/
noncomputable def J_wing_form_factor__wing_sweep (wing_thickness_to_chord_unweighted wing_sweep design_mach : ℝ) : ℝ :=
  ((-(51 / 25)) * ((wing_thickness_to_chord_unweighted * (2 - (design_mach ^ 2))) * (sin
    wing_sweep))) * (1 / ((a1 wing_sweep design_mach) ^ 3))

/-- Partial of `verticaltail_form_factor` with respect to `verticaltail_thickness_to_chord` as set by `AeroFormfactors`, aviary/subsystems/aerodynamics/gasp_based/gasp_aero_coeffs.py:155 -/
noncomputable def J_verticaltail_form_factor__verticaltail_thickness_to_chord (verticaltail_thickness_to_chord verticaltail_sweep design_mach : ℝ) : ℝ :=
  (51 / 25) * ((((2 - (design_mach ^ 2)) * (cos2 verticaltail_sweep)) / (a2 verticaltail_sweep
    design_mach)) + (400 * (verticaltail_thickness_to_chord ^ 3)))

/-- Partial of `verticaltail_form_factor` with respect to `design_mach` as set by `AeroFormfactors`, aviary/subsystems/aerodynamics/gasp_based/gasp_aero_coeffs.py:158 -/
noncomputable def J_verticaltail_form_factor__design_mach (verticaltail_thickness_to_chord verticaltail_sweep design_mach : ℝ) : ℝ :=
  ((-(51 / 25)) * ((verticaltail_thickness_to_chord * design_mach) * (cos2 verticaltail_sweep)))
    * (((((a2 verticaltail_sweep design_mach) ^ 2) + 1) - (2 * ((cos2 verticaltail_sweep) ^ 2)))
    / ((a2 verticaltail_sweep design_mach) ^ 3))

/-- Partial of `verticaltail_form_factor` with respect to `verticaltail_sweep` as set by `AeroFormfactors`, aviary/subsystems/aerodynamics/gasp_based/gasp_aero_coeffs.py:161 -/
noncomputable def J_verticaltail_form_factor__verticaltail_sweep (verticaltail_thickness_to_chord verticaltail_sweep design_mach : ℝ) : ℝ :=
  ((-(51 / 25)) * ((verticaltail_thickness_to_chord * (2 - (design_mach ^ 2))) * (sin
    verticaltail_sweep))) * (1 / ((a2 verticaltail_sweep design_mach) ^ 3))

/-- Partial of `horizontaltail_form_factor` with respect to `horizontaltail_thickness_to_chord` as set by `AeroFormfactors`, aviary/subsystems/aerodynamics/gasp_based/gasp_aero_coeffs.py:167 -/
noncomputable def J_horizontaltail_form_factor__horizontaltail_thickness_to_chord (horizontaltail_thickness_to_chord horizontaltail_sweep horizontaltail_vertical_tail_mount_location design_mach : ℝ) : ℝ :=
  ((51 / 25) * ((((2 - (design_mach ^ 2)) * (cos3 horizontaltail_sweep)) / (a3
    horizontaltail_sweep design_mach)) + (400 * (horizontaltail_thickness_to_chord ^ 3)))) * (1
    + ((1 / 20) * (1 - horizontaltail_vertical_tail_mount_location)))

/-- Partial of `horizontaltail_form_factor` with respect to `design_mach` as set by `AeroFormfactors`, aviary/subsystems/aerodynamics/gasp_based/gasp_aero_coeffs.py:170 -/
noncomputable def J_horizontaltail_form_factor__design_mach (horizontaltail_thickness_to_chord horizontaltail_sweep horizontaltail_vertical_tail_mount_location design_mach : ℝ) : ℝ :=
  (((-(51 / 25)) * ((horizontaltail_thickness_to_chord * design_mach) * (cos3
    horizontaltail_sweep))) * (((((a3 horizontaltail_sweep design_mach) ^ 2) + 1) - (2 * ((cos3
    horizontaltail_sweep) ^ 2))) / ((a3 horizontaltail_sweep design_mach) ^ 3))) * (1 + ((1 /
    20) * (1 - horizontaltail_vertical_tail_mount_location)))

/-- Partial of `horizontaltail_form_factor` with respect to `horizontaltail_sweep` as set by `AeroFormfactors`, aviary/subsystems/aerodynamics/gasp_based/gasp_aero_coeffs.py:177 -/
noncomputable def J_horizontaltail_form_factor__horizontaltail_sweep (horizontaltail_thickness_to_chord horizontaltail_sweep horizontaltail_vertical_tail_mount_location design_mach : ℝ) : ℝ :=
  (((-(51 / 25)) * ((horizontaltail_thickness_to_chord * (2 - (design_mach ^ 2))) * (sin
    horizontaltail_sweep))) * (1 / ((a3 horizontaltail_sweep design_mach) ^ 3))) * (1 + ((1 /
    20) * (1 - horizontaltail_vertical_tail_mount_location)))

/-- Partial of `horizontaltail_form_factor` with respect to `horizontaltail_vertical_tail_mount_location` as set by `AeroFormfactors`, aviary/subsystems/aerodynamics/gasp_based/gasp_aero_coeffs.py:184 -/
noncomputable def J_horizontaltail_form_factor__horizontaltail_vertical_tail_mount_location (horizontaltail_thickness_to_chord horizontaltail_sweep design_mach : ℝ) : ℝ :=
  ((51 / 25) * ((1 + (((horizontaltail_thickness_to_chord * (2 - (design_mach ^ 2))) * (cos3
    horizontaltail_sweep)) / (a3 horizontaltail_sweep design_mach))) + (100 *
    (horizontaltail_thickness_to_chord ^ 4)))) * (-(1 / 20))

/-- Partial of `strut_fuselage_interference_factor` with respect to `strut_thickness_to_chord` as set by `AeroFormfactors`, aviary/subsystems/aerodynamics/gasp_based/gasp_aero_coeffs.py:190 -/
noncomputable def J_strut_fuselage_interference_factor__strut_thickness_to_chord (strut_thickness_to_chord design_mach : ℝ) : ℝ :=
  (51 / 25) * (((2 - (design_mach ^ 2)) / (a4 design_mach)) + (400 * (strut_thickness_to_chord ^
    3)))

/-- Partial of `strut_fuselage_interference_factor` with respect to `design_mach` as set by `AeroFormfactors`, aviary/subsystems/aerodynamics/gasp_based/gasp_aero_coeffs.py:193 -/
noncomputable def J_strut_fuselage_interference_factor__design_mach (strut_thickness_to_chord design_mach : ℝ) : ℝ :=
  ((-(51 / 25)) * (strut_thickness_to_chord * design_mach)) * ((((a4 design_mach) ^ 2) - 1) /
    ((a4 design_mach) ^ 3))

/-- Partial of `nacelle_form_factor` with respect to `nacelle_avg_diameter` as set by `AeroFormfactors`, aviary/subsystems/aerodynamics/gasp_based/gasp_aero_coeffs.py:197 -/
noncomputable def J_nacelle_form_factor__nacelle_avg_diameter (nacelle_avg_length : ℝ) : ℝ :=
  (21 / 40) / nacelle_avg_length

/-- Partial of `nacelle_form_factor` with respect to `nacelle_avg_length` as set by `AeroFormfactors`, aviary/subsystems/aerodynamics/gasp_based/gasp_aero_coeffs.py:198 -/
noncomputable def J_nacelle_form_factor__nacelle_avg_length (nacelle_avg_diameter nacelle_avg_length : ℝ) : ℝ :=
  ((-(21 / 40)) * nacelle_avg_diameter) / (nacelle_avg_length ^ 2)

theorem d_wing_form_factor__wing_thickness_to_chord_unweighted (wing_thickness_to_chord_unweighted
    wing_sweep design_mach : ℝ) (h0 : 0 < 1 - ((design_mach ^ 2) * ((cos wing_sweep) ^ 2))) (h1 :
    0 < 1 - ((design_mach ^ 2) * ((cos wing_sweep) ^ 2))) :
    HasDerivAt (fun t => out_wing_form_factor t wing_sweep design_mach) (J_wing_form_factor__wing_thickness_to_chord_unweighted wing_thickness_to_chord_unweighted wing_sweep design_mach) wing_thickness_to_chord_unweighted := by
  simp only [out_wing_form_factor, J_wing_form_factor__wing_thickness_to_chord_unweighted, a1, cos1, ckw, sqrt_eq_rpow]
  (apply hasDerivAt_of_eq; on_goal 1 => (repeat' comp_step))
  all_goals try comp_side
  all_goals try simp (disch := first | assumption | positivity) only [div_mul_eq_div_div, div_half, inv_half]
  all_goals try simp only [mul_zero, zero_mul, add_zero, zero_add, sub_zero, zero_sub, mul_one, one_mul]
  all_goals try push_cast
  all_goals comp_eq

theorem d_wing_form_factor__wing_sweep (wing_thickness_to_chord_unweighted wing_sweep design_mach
    : ℝ) (h0 : 0 < 1 - ((design_mach ^ 2) * ((cos wing_sweep) ^ 2))) (h1 : 0 < 1 - ((design_mach ^
    2) * ((cos wing_sweep) ^ 2))) :
    HasDerivAt (fun t => out_wing_form_factor wing_thickness_to_chord_unweighted t design_mach) (J_wing_form_factor__wing_sweep wing_thickness_to_chord_unweighted wing_sweep design_mach) wing_sweep := by
  simp only [out_wing_form_factor, J_wing_form_factor__wing_sweep, a1, cos1, ckw, sqrt_eq_rpow]
  (apply hasDerivAt_of_eq; on_goal 1 => (repeat' comp_step))
  all_goals try comp_side
  all_goals try simp (disch := first | assumption | positivity) only [div_mul_eq_div_div, div_half, inv_half]
  all_goals try simp only [mul_zero, zero_mul, add_zero, zero_add, sub_zero, zero_sub, mul_one, one_mul]
  all_goals try push_cast
  all_goals comp_eq

theorem d_wing_form_factor__design_mach (wing_thickness_to_chord_unweighted wing_sweep design_mach
    : ℝ) (h0 : 0 < 1 - ((design_mach ^ 2) * ((cos wing_sweep) ^ 2))) (h1 : 0 < 1 - ((design_mach ^
    2) * ((cos wing_sweep) ^ 2))) :
    HasDerivAt (fun t => out_wing_form_factor wing_thickness_to_chord_unweighted wing_sweep t) (J_wing_form_factor__design_mach wing_thickness_to_chord_unweighted wing_sweep design_mach) design_mach := by
  simp only [out_wing_form_factor, J_wing_form_factor__design_mach, a1, cos1, ckw, sqrt_eq_rpow]
  (apply hasDerivAt_of_eq; on_goal 1 => (repeat' comp_step))
  all_goals try comp_side
  all_goals try simp (disch := first | assumption | positivity) only [div_mul_eq_div_div, div_half, inv_half]
  all_goals try simp only [mul_zero, zero_mul, add_zero, zero_add, sub_zero, zero_sub, mul_one, one_mul]
  all_goals try push_cast
  all_goals comp_eq

theorem d_verticaltail_form_factor__verticaltail_thickness_to_chord
    (verticaltail_thickness_to_chord verticaltail_sweep design_mach : ℝ) (h0 : 0 < 1 -
    ((design_mach ^ 2) * ((cos verticaltail_sweep) ^ 2))) (h1 : 0 < 1 - ((design_mach ^ 2) * ((cos
    verticaltail_sweep) ^ 2))) :
    HasDerivAt (fun t => out_verticaltail_form_factor t verticaltail_sweep design_mach) (J_verticaltail_form_factor__verticaltail_thickness_to_chord verticaltail_thickness_to_chord verticaltail_sweep design_mach) verticaltail_thickness_to_chord := by
  simp only [out_verticaltail_form_factor, J_verticaltail_form_factor__verticaltail_thickness_to_chord, a2, cos2, ckvt, sqrt_eq_rpow]
  (apply hasDerivAt_of_eq; on_goal 1 => (repeat' comp_step))
  all_goals try comp_side
  all_goals try simp (disch := first | assumption | positivity) only [div_mul_eq_div_div, div_half, inv_half]
  all_goals try simp only [mul_zero, zero_mul, add_zero, zero_add, sub_zero, zero_sub, mul_one, one_mul]
  all_goals try push_cast
  all_goals comp_eq

theorem d_verticaltail_form_factor__verticaltail_sweep (verticaltail_thickness_to_chord
    verticaltail_sweep design_mach : ℝ) (h0 : 0 < 1 - ((design_mach ^ 2) * ((cos
    verticaltail_sweep) ^ 2))) (h1 : 0 < 1 - ((design_mach ^ 2) * ((cos verticaltail_sweep) ^ 2)))
    :
    HasDerivAt (fun t => out_verticaltail_form_factor verticaltail_thickness_to_chord t design_mach) (J_verticaltail_form_factor__verticaltail_sweep verticaltail_thickness_to_chord verticaltail_sweep design_mach) verticaltail_sweep := by
  simp only [out_verticaltail_form_factor, J_verticaltail_form_factor__verticaltail_sweep, a2, cos2, ckvt, sqrt_eq_rpow]
  (apply hasDerivAt_of_eq; on_goal 1 => (repeat' comp_step))
  all_goals try comp_side
  all_goals try simp (disch := first | assumption | positivity) only [div_mul_eq_div_div, div_half, inv_half]
  all_goals try simp only [mul_zero, zero_mul, add_zero, zero_add, sub_zero, zero_sub, mul_one, one_mul]
  all_goals try push_cast
  all_goals comp_eq

theorem d_verticaltail_form_factor__design_mach (verticaltail_thickness_to_chord
    verticaltail_sweep design_mach : ℝ) (h0 : 0 < 1 - ((design_mach ^ 2) * ((cos
    verticaltail_sweep) ^ 2))) (h1 : 0 < 1 - ((design_mach ^ 2) * ((cos verticaltail_sweep) ^ 2)))
    :
    HasDerivAt (fun t => out_verticaltail_form_factor verticaltail_thickness_to_chord verticaltail_sweep t) (J_verticaltail_form_factor__design_mach verticaltail_thickness_to_chord verticaltail_sweep design_mach) design_mach := by
  simp only [out_verticaltail_form_factor, J_verticaltail_form_factor__design_mach, a2, cos2, ckvt, sqrt_eq_rpow]
  (apply hasDerivAt_of_eq; on_goal 1 => (repeat' comp_step))
  all_goals try comp_side
  all_goals try simp (disch := first | assumption | positivity) only [div_mul_eq_div_div, div_half, inv_half]
  all_goals try simp only [mul_zero, zero_mul, add_zero, zero_add, sub_zero, zero_sub, mul_one, one_mul]
  all_goals try push_cast
  all_goals comp_eq

theorem d_horizontaltail_form_factor__horizontaltail_thickness_to_chord
    (horizontaltail_thickness_to_chord horizontaltail_sweep
    horizontaltail_vertical_tail_mount_location design_mach : ℝ) (h0 : 0 < 1 - ((design_mach ^ 2)
    * ((cos horizontaltail_sweep) ^ 2))) (h1 : 0 < 1 - ((design_mach ^ 2) * ((cos
    horizontaltail_sweep) ^ 2))) :
    HasDerivAt (fun t => out_horizontaltail_form_factor t horizontaltail_sweep horizontaltail_vertical_tail_mount_location design_mach) (J_horizontaltail_form_factor__horizontaltail_thickness_to_chord horizontaltail_thickness_to_chord horizontaltail_sweep horizontaltail_vertical_tail_mount_location design_mach) horizontaltail_thickness_to_chord := by
  simp only [out_horizontaltail_form_factor, J_horizontaltail_form_factor__horizontaltail_thickness_to_chord, a3, cos3, ckht, sqrt_eq_rpow]
  (apply hasDerivAt_of_eq; on_goal 1 => (repeat' comp_step))
  all_goals try comp_side
  all_goals try simp (disch := first | assumption | positivity) only [div_mul_eq_div_div, div_half, inv_half]
  all_goals try simp only [mul_zero, zero_mul, add_zero, zero_add, sub_zero, zero_sub, mul_one, one_mul]
  all_goals try push_cast
  all_goals comp_eq

theorem d_horizontaltail_form_factor__horizontaltail_sweep (horizontaltail_thickness_to_chord
    horizontaltail_sweep horizontaltail_vertical_tail_mount_location design_mach : ℝ) (h0 : 0 < 1
    - ((design_mach ^ 2) * ((cos horizontaltail_sweep) ^ 2))) (h1 : 0 < 1 - ((design_mach ^ 2) *
    ((cos horizontaltail_sweep) ^ 2))) :
    HasDerivAt (fun t => out_horizontaltail_form_factor horizontaltail_thickness_to_chord t horizontaltail_vertical_tail_mount_location design_mach) (J_horizontaltail_form_factor__horizontaltail_sweep horizontaltail_thickness_to_chord horizontaltail_sweep horizontaltail_vertical_tail_mount_location design_mach) horizontaltail_sweep := by
  simp only [out_horizontaltail_form_factor, J_horizontaltail_form_factor__horizontaltail_sweep, a3, cos3, ckht, sqrt_eq_rpow]
  (apply hasDerivAt_of_eq; on_goal 1 => (repeat' comp_step))
  all_goals try comp_side
  all_goals try simp (disch := first | assumption | positivity) only [div_mul_eq_div_div, div_half, inv_half]
  all_goals try simp only [mul_zero, zero_mul, add_zero, zero_add, sub_zero, zero_sub, mul_one, one_mul]
  all_goals try push_cast
  all_goals comp_eq

theorem d_horizontaltail_form_factor__horizontaltail_vertical_tail_mount_location
    (horizontaltail_thickness_to_chord horizontaltail_sweep
    horizontaltail_vertical_tail_mount_location design_mach : ℝ) (h0 : 0 < 1 - ((design_mach ^ 2)
    * ((cos horizontaltail_sweep) ^ 2))) (h1 : 0 < 1 - ((design_mach ^ 2) * ((cos
    horizontaltail_sweep) ^ 2))) :
    HasDerivAt (fun t => out_horizontaltail_form_factor horizontaltail_thickness_to_chord horizontaltail_sweep t design_mach) (J_horizontaltail_form_factor__horizontaltail_vertical_tail_mount_location horizontaltail_thickness_to_chord horizontaltail_sweep design_mach) horizontaltail_vertical_tail_mount_location := by
  simp only [out_horizontaltail_form_factor, J_horizontaltail_form_factor__horizontaltail_vertical_tail_mount_location, a3, cos3, ckht, sqrt_eq_rpow]
  (apply hasDerivAt_of_eq; on_goal 1 => (repeat' comp_step))
  all_goals try comp_side
  all_goals try simp (disch := first | assumption | positivity) only [div_mul_eq_div_div, div_half, inv_half]
  all_goals try simp only [mul_zero, zero_mul, add_zero, zero_add, sub_zero, zero_sub, mul_one, one_mul]
  all_goals try push_cast
  all_goals comp_eq

theorem d_horizontaltail_form_factor__design_mach (horizontaltail_thickness_to_chord
    horizontaltail_sweep horizontaltail_vertical_tail_mount_location design_mach : ℝ) (h0 : 0 < 1
    - ((design_mach ^ 2) * ((cos horizontaltail_sweep) ^ 2))) (h1 : 0 < 1 - ((design_mach ^ 2) *
    ((cos horizontaltail_sweep) ^ 2))) :
    HasDerivAt (fun t => out_horizontaltail_form_factor horizontaltail_thickness_to_chord horizontaltail_sweep horizontaltail_vertical_tail_mount_location t) (J_horizontaltail_form_factor__design_mach horizontaltail_thickness_to_chord horizontaltail_sweep horizontaltail_vertical_tail_mount_location design_mach) design_mach := by
  simp only [out_horizontaltail_form_factor, J_horizontaltail_form_factor__design_mach, a3, cos3, ckht, sqrt_eq_rpow]
  (apply hasDerivAt_of_eq; on_goal 1 => (repeat' comp_step))
  all_goals try comp_side
  all_goals try simp (disch := first | assumption | positivity) only [div_mul_eq_div_div, div_half, inv_half]
  all_goals try simp only [mul_zero, zero_mul, add_zero, zero_add, sub_zero, zero_sub, mul_one, one_mul]
  all_goals try push_cast
  all_goals comp_eq

theorem d_strut_fuselage_interference_factor__strut_thickness_to_chord (strut_thickness_to_chord
    design_mach : ℝ) (h0 : 0 < 1 - (design_mach ^ 2)) :
    HasDerivAt (fun t => out_strut_fuselage_interference_factor t design_mach) (J_strut_fuselage_interference_factor__strut_thickness_to_chord strut_thickness_to_chord design_mach) strut_thickness_to_chord := by
  simp only [out_strut_fuselage_interference_factor, J_strut_fuselage_interference_factor__strut_thickness_to_chord, a4, ckstrt, sqrt_eq_rpow]
  (apply hasDerivAt_of_eq; on_goal 1 => (repeat' comp_step))
  all_goals try comp_side
  all_goals try simp (disch := first | assumption | positivity) only [div_mul_eq_div_div, div_half, inv_half]
  all_goals try simp only [mul_zero, zero_mul, add_zero, zero_add, sub_zero, zero_sub, mul_one, one_mul]
  all_goals try push_cast
  all_goals comp_eq

theorem d_strut_fuselage_interference_factor__design_mach (strut_thickness_to_chord design_mach :
    ℝ) (h0 : 0 < 1 - (design_mach ^ 2)) :
    HasDerivAt (fun t => out_strut_fuselage_interference_factor strut_thickness_to_chord t) (J_strut_fuselage_interference_factor__design_mach strut_thickness_to_chord design_mach) design_mach := by
  simp only [out_strut_fuselage_interference_factor, J_strut_fuselage_interference_factor__design_mach, a4, ckstrt, sqrt_eq_rpow]
  (apply hasDerivAt_of_eq; on_goal 1 => (repeat' comp_step))
  all_goals try comp_side
  all_goals try simp (disch := first | assumption | positivity) only [div_mul_eq_div_div, div_half, inv_half]
  all_goals try simp only [mul_zero, zero_mul, add_zero, zero_add, sub_zero, zero_sub, mul_one, one_mul]
  all_goals try push_cast
  all_goals comp_eq

theorem d_nacelle_form_factor__nacelle_avg_diameter (nacelle_avg_diameter nacelle_avg_length : ℝ)
    (h0 : 0 < nacelle_avg_diameter) (h1 : 0 < nacelle_avg_length) :
    HasDerivAt (fun t => out_nacelle_form_factor t nacelle_avg_length) (J_nacelle_form_factor__nacelle_avg_diameter nacelle_avg_length) nacelle_avg_diameter := by
  simp only [out_nacelle_form_factor, J_nacelle_form_factor__nacelle_avg_diameter, ckn]
  (apply hasDerivAt_of_eq; on_goal 1 => (repeat' comp_step))
  all_goals try comp_side
  all_goals try simp only [mul_zero, zero_mul, add_zero, zero_add, sub_zero, zero_sub, mul_one, one_mul]
  all_goals try push_cast
  all_goals comp_eq

theorem d_nacelle_form_factor__nacelle_avg_length (nacelle_avg_diameter nacelle_avg_length : ℝ)
    (h0 : 0 < nacelle_avg_diameter) (h1 : 0 < nacelle_avg_length) :
    HasDerivAt (fun t => out_nacelle_form_factor nacelle_avg_diameter t) (J_nacelle_form_factor__nacelle_avg_length nacelle_avg_diameter nacelle_avg_length) nacelle_avg_length := by
  simp only [out_nacelle_form_factor, J_nacelle_form_factor__nacelle_avg_length, ckn]
  (apply hasDerivAt_of_eq; on_goal 1 => (repeat' comp_step))
  all_goals try comp_side
  all_goals try simp only [mul_zero, zero_mul, add_zero, zero_add, sub_zero, zero_sub, mul_one, one_mul]
  all_goals try push_cast
  all_goals comp_eq

/-- Every partial derivative set by `AeroFormfactors` is the derivative of its output. -/
theorem partials (wing_thickness_to_chord_unweighted verticaltail_thickness_to_chord
    horizontaltail_thickness_to_chord strut_thickness_to_chord wing_sweep verticaltail_sweep
    horizontaltail_sweep horizontaltail_vertical_tail_mount_location design_mach
    nacelle_avg_diameter nacelle_avg_length : ℝ) (h0 : 0 < 1 - ((design_mach ^ 2) * ((cos
    wing_sweep) ^ 2))) (h1 : 0 < 1 - ((design_mach ^ 2) * ((cos verticaltail_sweep) ^ 2))) (h2 : 0
    < 1 - ((design_mach ^ 2) * ((cos horizontaltail_sweep) ^ 2))) (h3 : 0 < 1 - (design_mach ^ 2))
    (h4 : 0 < nacelle_avg_diameter) (h5 : 0 < nacelle_avg_length) :
    HasDerivAt (fun t => out_wing_form_factor t wing_sweep design_mach)
      (J_wing_form_factor__wing_thickness_to_chord_unweighted wing_thickness_to_chord_unweighted
      wing_sweep design_mach) wing_thickness_to_chord_unweighted ∧
    HasDerivAt (fun t => out_wing_form_factor wing_thickness_to_chord_unweighted t design_mach)
      (J_wing_form_factor__wing_sweep wing_thickness_to_chord_unweighted wing_sweep design_mach)
      wing_sweep ∧
    HasDerivAt (fun t => out_wing_form_factor wing_thickness_to_chord_unweighted wing_sweep t)
      (J_wing_form_factor__design_mach wing_thickness_to_chord_unweighted wing_sweep design_mach)
      design_mach ∧
    HasDerivAt (fun t => out_verticaltail_form_factor t verticaltail_sweep design_mach)
      (J_verticaltail_form_factor__verticaltail_thickness_to_chord verticaltail_thickness_to_chord
      verticaltail_sweep design_mach) verticaltail_thickness_to_chord ∧
    HasDerivAt (fun t => out_verticaltail_form_factor verticaltail_thickness_to_chord t design_mach)
      (J_verticaltail_form_factor__verticaltail_sweep verticaltail_thickness_to_chord
      verticaltail_sweep design_mach) verticaltail_sweep ∧
    HasDerivAt (fun t => out_verticaltail_form_factor verticaltail_thickness_to_chord
      verticaltail_sweep t) (J_verticaltail_form_factor__design_mach
      verticaltail_thickness_to_chord verticaltail_sweep design_mach) design_mach ∧
    HasDerivAt (fun t => out_horizontaltail_form_factor t horizontaltail_sweep
      horizontaltail_vertical_tail_mount_location design_mach)
      (J_horizontaltail_form_factor__horizontaltail_thickness_to_chord
      horizontaltail_thickness_to_chord horizontaltail_sweep
      horizontaltail_vertical_tail_mount_location design_mach) horizontaltail_thickness_to_chord ∧
    HasDerivAt (fun t => out_horizontaltail_form_factor horizontaltail_thickness_to_chord t
      horizontaltail_vertical_tail_mount_location design_mach)
      (J_horizontaltail_form_factor__horizontaltail_sweep horizontaltail_thickness_to_chord
      horizontaltail_sweep horizontaltail_vertical_tail_mount_location design_mach)
      horizontaltail_sweep ∧
    HasDerivAt (fun t => out_horizontaltail_form_factor horizontaltail_thickness_to_chord
      horizontaltail_sweep t design_mach)
      (J_horizontaltail_form_factor__horizontaltail_vertical_tail_mount_location
      horizontaltail_thickness_to_chord horizontaltail_sweep design_mach)
      horizontaltail_vertical_tail_mount_location ∧
    HasDerivAt (fun t => out_horizontaltail_form_factor horizontaltail_thickness_to_chord
      horizontaltail_sweep horizontaltail_vertical_tail_mount_location t)
      (J_horizontaltail_form_factor__design_mach horizontaltail_thickness_to_chord
      horizontaltail_sweep horizontaltail_vertical_tail_mount_location design_mach) design_mach ∧
    HasDerivAt (fun t => out_strut_fuselage_interference_factor t design_mach)
      (J_strut_fuselage_interference_factor__strut_thickness_to_chord strut_thickness_to_chord
      design_mach) strut_thickness_to_chord ∧
    HasDerivAt (fun t => out_strut_fuselage_interference_factor strut_thickness_to_chord t)
      (J_strut_fuselage_interference_factor__design_mach strut_thickness_to_chord design_mach)
      design_mach ∧
    HasDerivAt (fun t => out_nacelle_form_factor t nacelle_avg_length)
      (J_nacelle_form_factor__nacelle_avg_diameter nacelle_avg_length) nacelle_avg_diameter ∧
    HasDerivAt (fun t => out_nacelle_form_factor nacelle_avg_diameter t)
      (J_nacelle_form_factor__nacelle_avg_length nacelle_avg_diameter nacelle_avg_length)
      nacelle_avg_length :=
  ⟨d_wing_form_factor__wing_thickness_to_chord_unweighted _ _ _ h0 h0,
    d_wing_form_factor__wing_sweep _ _ _ h0 h0, d_wing_form_factor__design_mach _ _ _ h0 h0,
    d_verticaltail_form_factor__verticaltail_thickness_to_chord _ _ _ h1 h1,
    d_verticaltail_form_factor__verticaltail_sweep _ _ _ h1 h1,
    d_verticaltail_form_factor__design_mach _ _ _ h1 h1,
    d_horizontaltail_form_factor__horizontaltail_thickness_to_chord _ _ _ _ h2 h2,
    d_horizontaltail_form_factor__horizontaltail_sweep _ _ _ _ h2 h2,
    d_horizontaltail_form_factor__horizontaltail_vertical_tail_mount_location _ _ _ _ h2 h2,
    d_horizontaltail_form_factor__design_mach _ _ _ _ h2 h2,
    d_strut_fuselage_interference_factor__strut_thickness_to_chord _ _ h3,
    d_strut_fuselage_interference_factor__design_mach _ _ h3,
    d_nacelle_form_factor__nacelle_avg_diameter _ _ h4 h5,
    d_nacelle_form_factor__nacelle_avg_length _ _ h4 h5⟩

example : ∃ wing_thickness_to_chord_unweighted verticaltail_thickness_to_chord
      horizontaltail_thickness_to_chord strut_thickness_to_chord wing_sweep verticaltail_sweep
      horizontaltail_sweep horizontaltail_vertical_tail_mount_location design_mach
      nacelle_avg_diameter nacelle_avg_length : ℝ,
      0 < 1 - ((design_mach ^ 2) * ((cos wing_sweep) ^ 2)) ∧
      0 < 1 - ((design_mach ^ 2) * ((cos verticaltail_sweep) ^ 2)) ∧
      0 < 1 - ((design_mach ^ 2) * ((cos horizontaltail_sweep) ^ 2)) ∧
      0 < 1 - (design_mach ^ 2) ∧
      0 < nacelle_avg_diameter ∧
      0 < nacelle_avg_length :=
  ⟨0, 0, 0, 0, 0, 0, 0, 0, 0, 1, 1, by comp_example, by comp_example, by comp_example, by
    comp_example, by comp_example, by comp_example⟩

end Verif.Comp.AerodynamicsGaspBasedGaspAeroCoeffs.AeroFormfactors

namespace Verif.Comp.AerodynamicsGaspBasedGaspAeroCoeffs.BWBFormFactor
open Real

/-- aviary/subsystems/aerodynamics/gasp_based/gasp_aero_coeffs.py:300 -/
noncomputable def fffus (fuselage_length fuselage_hydraulic_diameter : ℝ) : ℝ :=
  (1 + ((3 / 2) * ((fuselage_hydraulic_diameter / fuselage_length) ^ ((3 / 2) : ℝ)))) + (7 *
    ((fuselage_hydraulic_diameter / fuselage_length) ^ 3))

/-- aviary/subsystems/aerodynamics/gasp_based/gasp_aero_coeffs.py:307 -/
noncomputable def dfffus_ddiam (fuselage_length fuselage_hydraulic_diameter : ℝ) : ℝ :=
  (((9 / 4) * ((fuselage_hydraulic_diameter / fuselage_length) ^ ((1 / 2) : ℝ))) /
    fuselage_length) + ((21 * ((fuselage_hydraulic_diameter / fuselage_length) ^ 2)) /
    fuselage_length)

/-- aviary/subsystems/aerodynamics/gasp_based/gasp_aero_coeffs.py:310 -/
noncomputable def dfffus_dfus_len (fuselage_length fuselage_hydraulic_diameter : ℝ) : ℝ :=
  ((((-(9 / 4)) * ((fuselage_hydraulic_diameter / fuselage_length) ^ ((1 / 2) : ℝ))) *
    fuselage_hydraulic_diameter) / (fuselage_length ^ 2)) - (((21 *
    ((fuselage_hydraulic_diameter / fuselage_length) ^ 2)) * fuselage_hydraulic_diameter) /
    (fuselage_length ^ 2))

/-- Output `fuselage_form_factor` of `BWBFormFactor.compute`, aviary/subsystems/aerodynamics/gasp_based/gasp_aero_coeffs.py:301 -/
noncomputable def out_fuselage_form_factor (fuselage_length fuselage_hydraulic_diameter : ℝ) : ℝ :=
  fffus fuselage_length fuselage_hydraulic_diameter

/-- Partial of `fuselage_form_factor` with respect to `fuselage_hydraulic_diameter` as set by `BWBFormFactor`, aviary/subsystems/aerodynamics/gasp_based/gasp_aero_coeffs.py:315 -/
noncomputable def J_fuselage_form_factor__fuselage_hydraulic_diameter (fuselage_length fuselage_hydraulic_diameter : ℝ) : ℝ :=
  dfffus_ddiam fuselage_length fuselage_hydraulic_diameter

/-- Partial of `fuselage_form_factor` with respect to `fuselage_length` as set by `BWBFormFactor`, aviary/subsystems/aerodynamics/gasp_based/gasp_aero_coeffs.py:316 -/
noncomputable def J_fuselage_form_factor__fuselage_length (fuselage_length fuselage_hydraulic_diameter : ℝ) : ℝ :=
  dfffus_dfus_len fuselage_length fuselage_hydraulic_diameter

theorem d_fuselage_form_factor__fuselage_length (fuselage_length fuselage_hydraulic_diameter : ℝ)
    (h0 : 0 < fuselage_length) (h1 : 0 < fuselage_hydraulic_diameter) :
    HasDerivAt (fun t => out_fuselage_form_factor t fuselage_hydraulic_diameter) (J_fuselage_form_factor__fuselage_length fuselage_length fuselage_hydraulic_diameter) fuselage_length := by
  have e0 : ∀ x : ℝ, 0 < x → x ^ ((3 / 2) : ℝ) = x ^ ((1 / 2) : ℝ) * x ^ 1 := fun x hx => rpow_up hx 1 (by norm_num)
  simp only [out_fuselage_form_factor, J_fuselage_form_factor__fuselage_length, dfffus_dfus_len, fffus]
  (apply hasDerivAt_of_eq; on_goal 1 => (repeat' comp_step))
  all_goals try comp_side
  all_goals try simp (disch := first | assumption | positivity) only [e0, div_mul_eq_div_div, div_half, inv_half]
  all_goals try simp only [mul_zero, zero_mul, add_zero, zero_add, sub_zero, zero_sub, mul_one, one_mul]
  all_goals try push_cast
  all_goals comp_eq

theorem d_fuselage_form_factor__fuselage_hydraulic_diameter (fuselage_length
    fuselage_hydraulic_diameter : ℝ) (h0 : 0 < fuselage_length) (h1 : 0 <
    fuselage_hydraulic_diameter) :
    HasDerivAt (fun t => out_fuselage_form_factor fuselage_length t) (J_fuselage_form_factor__fuselage_hydraulic_diameter fuselage_length fuselage_hydraulic_diameter) fuselage_hydraulic_diameter := by
  have e0 : ∀ x : ℝ, 0 < x → x ^ ((3 / 2) : ℝ) = x ^ ((1 / 2) : ℝ) * x ^ 1 := fun x hx => rpow_up hx 1 (by norm_num)
  simp only [out_fuselage_form_factor, J_fuselage_form_factor__fuselage_hydraulic_diameter, dfffus_ddiam, fffus]
  (apply hasDerivAt_of_eq; on_goal 1 => (repeat' comp_step))
  all_goals try comp_side
  all_goals try simp (disch := first | assumption | positivity) only [e0, div_mul_eq_div_div, div_half, inv_half]
  all_goals try simp only [mul_zero, zero_mul, add_zero, zero_add, sub_zero, zero_sub, mul_one, one_mul]
  all_goals try push_cast
  all_goals comp_eq

/-- Every partial derivative set by `BWBFormFactor` is the derivative of its output. -/
theorem partials (fuselage_length fuselage_hydraulic_diameter : ℝ) (h0 : 0 < fuselage_length) (h1
    : 0 < fuselage_hydraulic_diameter) :
    HasDerivAt (fun t => out_fuselage_form_factor t fuselage_hydraulic_diameter)
      (J_fuselage_form_factor__fuselage_length fuselage_length fuselage_hydraulic_diameter)
      fuselage_length ∧
    HasDerivAt (fun t => out_fuselage_form_factor fuselage_length t)
      (J_fuselage_form_factor__fuselage_hydraulic_diameter fuselage_length
      fuselage_hydraulic_diameter) fuselage_hydraulic_diameter :=
  ⟨d_fuselage_form_factor__fuselage_length _ _ h0 h1,
    d_fuselage_form_factor__fuselage_hydraulic_diameter _ _ h0 h1⟩

example : ∃ fuselage_length fuselage_hydraulic_diameter : ℝ,
      0 < fuselage_length ∧
      0 < fuselage_hydraulic_diameter :=
  ⟨1, 1, by comp_example, by comp_example⟩

end Verif.Comp.AerodynamicsGaspBasedGaspAeroCoeffs.BWBFormFactor

namespace Verif.Comp.AerodynamicsGaspBasedGaspAeroCoeffs.FormFactor
open Real

/-- aviary/subsystems/aerodynamics/gasp_based/gasp_aero_coeffs.py:241 -/
noncomputable def fffus (fuselage_length fuselage_avg_diameter : ℝ) : ℝ :=
  (1 + ((3 / 2) * ((fuselage_avg_diameter / fuselage_length) ^ ((3 / 2) : ℝ)))) + (7 *
    ((fuselage_avg_diameter / fuselage_length) ^ 3))

/-- aviary/subsystems/aerodynamics/gasp_based/gasp_aero_coeffs.py:248 -/
noncomputable def dfffus_dcabin_width (fuselage_length fuselage_avg_diameter : ℝ) : ℝ :=
  (((9 / 4) * ((fuselage_avg_diameter / fuselage_length) ^ ((1 / 2) : ℝ))) / fuselage_length) +
    ((21 * ((fuselage_avg_diameter / fuselage_length) ^ 2)) / fuselage_length)

/-- aviary/subsystems/aerodynamics/gasp_based/gasp_aero_coeffs.py:252 -/
noncomputable def dfffus_dfus_len (fuselage_length fuselage_avg_diameter : ℝ) : ℝ :=
  ((((-(9 / 4)) * ((fuselage_avg_diameter / fuselage_length) ^ ((1 / 2) : ℝ))) *
    fuselage_avg_diameter) / (fuselage_length ^ 2)) - (((21 * ((fuselage_avg_diameter /
    fuselage_length) ^ 2)) * fuselage_avg_diameter) / (fuselage_length ^ 2))

/-- Output `fuselage_form_factor` of `FormFactor.compute`, aviary/subsystems/aerodynamics/gasp_based/gasp_aero_coeffs.py:242 -/
noncomputable def out_fuselage_form_factor (fuselage_length fuselage_avg_diameter : ℝ) : ℝ :=
  fffus fuselage_length fuselage_avg_diameter

/-- Partial of `fuselage_form_factor` with respect to `fuselage_avg_diameter` as set by `FormFactor`, aviary/subsystems/aerodynamics/gasp_based/gasp_aero_coeffs.py:257 -/
noncomputable def J_fuselage_form_factor__fuselage_avg_diameter (fuselage_length fuselage_avg_diameter : ℝ) : ℝ :=
  dfffus_dcabin_width fuselage_length fuselage_avg_diameter

/-- Partial of `fuselage_form_factor` with respect to `fuselage_length` as set by `FormFactor`, aviary/subsystems/aerodynamics/gasp_based/gasp_aero_coeffs.py:258 -/
noncomputable def J_fuselage_form_factor__fuselage_length (fuselage_length fuselage_avg_diameter : ℝ) : ℝ :=
  dfffus_dfus_len fuselage_length fuselage_avg_diameter

theorem d_fuselage_form_factor__fuselage_length (fuselage_length fuselage_avg_diameter : ℝ) (h0 :
    0 < fuselage_length) (h1 : 0 < fuselage_avg_diameter) :
    HasDerivAt (fun t => out_fuselage_form_factor t fuselage_avg_diameter) (J_fuselage_form_factor__fuselage_length fuselage_length fuselage_avg_diameter) fuselage_length := by
  have e0 : ∀ x : ℝ, 0 < x → x ^ ((3 / 2) : ℝ) = x ^ ((1 / 2) : ℝ) * x ^ 1 := fun x hx => rpow_up hx 1 (by norm_num)
  simp only [out_fuselage_form_factor, J_fuselage_form_factor__fuselage_length, dfffus_dfus_len, fffus]
  (apply hasDerivAt_of_eq; on_goal 1 => (repeat' comp_step))
  all_goals try comp_side
  all_goals try simp (disch := first | assumption | positivity) only [e0, div_mul_eq_div_div, div_half, inv_half]
  all_goals try simp only [mul_zero, zero_mul, add_zero, zero_add, sub_zero, zero_sub, mul_one, one_mul]
  all_goals try push_cast
  all_goals comp_eq

theorem d_fuselage_form_factor__fuselage_avg_diameter (fuselage_length fuselage_avg_diameter : ℝ)
    (h0 : 0 < fuselage_length) (h1 : 0 < fuselage_avg_diameter) :
    HasDerivAt (fun t => out_fuselage_form_factor fuselage_length t) (J_fuselage_form_factor__fuselage_avg_diameter fuselage_length fuselage_avg_diameter) fuselage_avg_diameter := by
  have e0 : ∀ x : ℝ, 0 < x → x ^ ((3 / 2) : ℝ) = x ^ ((1 / 2) : ℝ) * x ^ 1 := fun x hx => rpow_up hx 1 (by norm_num)
  simp only [out_fuselage_form_factor, J_fuselage_form_factor__fuselage_avg_diameter, dfffus_dcabin_width, fffus]
  (apply hasDerivAt_of_eq; on_goal 1 => (repeat' comp_step))
  all_goals try comp_side
  all_goals try simp (disch := first | assumption | positivity) only [e0, div_mul_eq_div_div, div_half, inv_half]
  all_goals try simp only [mul_zero, zero_mul, add_zero, zero_add, sub_zero, zero_sub, mul_one, one_mul]
  all_goals try push_cast
  all_goals comp_eq

/-- Every partial derivative set by `FormFactor` is the derivative of its output. -/
theorem partials (fuselage_length fuselage_avg_diameter : ℝ) (h0 : 0 < fuselage_length) (h1 : 0 <
    fuselage_avg_diameter) :
    HasDerivAt (fun t => out_fuselage_form_factor t fuselage_avg_diameter)
      (J_fuselage_form_factor__fuselage_length fuselage_length fuselage_avg_diameter)
      fuselage_length ∧
    HasDerivAt (fun t => out_fuselage_form_factor fuselage_length t)
      (J_fuselage_form_factor__fuselage_avg_diameter fuselage_length fuselage_avg_diameter)
      fuselage_avg_diameter :=
  ⟨d_fuselage_form_factor__fuselage_length _ _ h0 h1,
    d_fuselage_form_factor__fuselage_avg_diameter _ _ h0 h1⟩

example : ∃ fuselage_length fuselage_avg_diameter : ℝ,
      0 < fuselage_length ∧
      0 < fuselage_avg_diameter :=
  ⟨1, 1, by comp_example, by comp_example⟩

end Verif.Comp.AerodynamicsGaspBasedGaspAeroCoeffs.FormFactor

