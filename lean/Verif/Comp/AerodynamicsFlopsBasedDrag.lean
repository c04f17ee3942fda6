import Verif.Lemmas.CompDeriv

/-! # Partial derivatives of the components of `aviary/subsystems/aerodynamics/flops_based/drag.py`

One node of a vector component is modelled over the real numbers.  Each option that selects a
branch is fixed, one namespace per choice.  `out_x` is the output `x`, `J_x__y` the entry that
`compute_partials` (or `declare_partials` with `val`) assigns, `d_x__y` the proof that the entry is
the derivative.  Inputs an output does not take as argument have no influence on it. -/

set_option linter.all false

namespace Verif.Comp.AerodynamicsFlopsBasedDrag.ScaledCD
open Real

/-- aviary/subsystems/aerodynamics/flops_based/drag.py:68 -/
noncomputable abbrev cd_scaled (design_subsonic_drag_coeff_factor cd_prescaled : ℝ) : ℝ :=
  cd_prescaled * design_subsonic_drag_coeff_factor

/-- aviary/subsystems/aerodynamics/flops_based/drag.py:69 -/
noncomputable abbrev cd_scaled_2 (design_subsonic_drag_coeff_factor design_supersonic_drag_coeff_factor atmosphere_mach cd_prescaled : ℝ) : ℝ :=
  if 1 ≤ atmosphere_mach then (cd_prescaled * design_supersonic_drag_coeff_factor) else
    (cd_scaled design_subsonic_drag_coeff_factor cd_prescaled)

/-- aviary/subsystems/aerodynamics/flops_based/drag.py:84 -/
noncomputable abbrev dcd (design_subsonic_drag_coeff_factor atmosphere_mach : ℝ) : ℝ :=
  if atmosphere_mach < 1 then design_subsonic_drag_coeff_factor else 1

/-- aviary/subsystems/aerodynamics/flops_based/drag.py:85 -/
noncomputable abbrev dcd_2 (design_subsonic_drag_coeff_factor design_supersonic_drag_coeff_factor atmosphere_mach : ℝ) : ℝ :=
  if 1 ≤ atmosphere_mach then design_supersonic_drag_coeff_factor else (dcd
    design_subsonic_drag_coeff_factor atmosphere_mach)

/-- aviary/subsystems/aerodynamics/flops_based/drag.py:89 -/
noncomputable abbrev df (atmosphere_mach cd_prescaled : ℝ) : ℝ :=
  if atmosphere_mach < 1 then cd_prescaled else 0

/-- aviary/subsystems/aerodynamics/flops_based/drag.py:93 -/
noncomputable abbrev df_2 (atmosphere_mach cd_prescaled : ℝ) : ℝ :=
  if 1 ≤ atmosphere_mach then cd_prescaled else 0

/-- Output `vehicle_drag_coefficient` of `ScaledCD.compute`, aviary/subsystems/aerodynamics/flops_based/drag.py:70 -/
noncomputable def out_vehicle_drag_coefficient (design_subsonic_drag_coeff_factor design_supersonic_drag_coeff_factor atmosphere_mach cd_prescaled : ℝ) : ℝ :=
  cd_scaled_2 design_subsonic_drag_coeff_factor design_supersonic_drag_coeff_factor
    atmosphere_mach cd_prescaled

/-- Partial of `vehicle_drag_coefficient` with respect to `cd_prescaled` as set by `ScaledCD`, aviary/subsystems/aerodynamics/flops_based/drag.py:86 -/
noncomputable def J_vehicle_drag_coefficient__cd_prescaled (design_subsonic_drag_coeff_factor design_supersonic_drag_coeff_factor atmosphere_mach : ℝ) : ℝ :=
  dcd_2 design_subsonic_drag_coeff_factor design_supersonic_drag_coeff_factor atmosphere_mach

/-- Partial of `vehicle_drag_coefficient` with respect to `design_subsonic_drag_coeff_factor` as set by `ScaledCD`, aviary/subsystems/aerodynamics/flops_based/drag.py:90 -/
noncomputable def J_vehicle_drag_coefficient__design_subsonic_drag_coeff_factor (atmosphere_mach cd_prescaled : ℝ) : ℝ :=
  df atmosphere_mach cd_prescaled

/-- Partial of `vehicle_drag_coefficient` with respect to `design_supersonic_drag_coeff_factor` as set by `ScaledCD`, aviary/subsystems/aerodynamics/flops_based/drag.py:94 -/
noncomputable def J_vehicle_drag_coefficient__design_supersonic_drag_coeff_factor (atmosphere_mach cd_prescaled : ℝ) : ℝ :=
  df_2 atmosphere_mach cd_prescaled

theorem d_vehicle_drag_coefficient__design_subsonic_drag_coeff_factor
    (design_subsonic_drag_coeff_factor design_supersonic_drag_coeff_factor atmosphere_mach
    cd_prescaled : ℝ)  :
    HasDerivAt (fun t => out_vehicle_drag_coefficient t design_supersonic_drag_coeff_factor atmosphere_mach cd_prescaled) (J_vehicle_drag_coefficient__design_subsonic_drag_coeff_factor atmosphere_mach cd_prescaled) design_subsonic_drag_coeff_factor := by
  simp only [out_vehicle_drag_coefficient, J_vehicle_drag_coefficient__design_subsonic_drag_coeff_factor, df, cd_scaled_2, cd_scaled]
  try split_ifs
  all_goals (apply hasDerivAt_of_eq; on_goal 1 => (repeat' comp_step))
  all_goals try comp_side
  all_goals try split_ifs
  all_goals try (exfalso; linarith)
  all_goals try simp only [mul_zero, zero_mul, add_zero, zero_add, sub_zero, zero_sub, mul_one, one_mul]
  all_goals try push_cast
  all_goals comp_eq

theorem d_vehicle_drag_coefficient__design_supersonic_drag_coeff_factor
    (design_subsonic_drag_coeff_factor design_supersonic_drag_coeff_factor atmosphere_mach
    cd_prescaled : ℝ)  :
    HasDerivAt (fun t => out_vehicle_drag_coefficient design_subsonic_drag_coeff_factor t atmosphere_mach cd_prescaled) (J_vehicle_drag_coefficient__design_supersonic_drag_coeff_factor atmosphere_mach cd_prescaled) design_supersonic_drag_coeff_factor := by
  simp only [out_vehicle_drag_coefficient, J_vehicle_drag_coefficient__design_supersonic_drag_coeff_factor, df_2, cd_scaled_2, cd_scaled]
  try split_ifs
  all_goals (apply hasDerivAt_of_eq; on_goal 1 => (repeat' comp_step))
  all_goals try comp_side
  all_goals try split_ifs
  all_goals try (exfalso; linarith)
  all_goals try simp only [mul_zero, zero_mul, add_zero, zero_add, sub_zero, zero_sub, mul_one, one_mul]
  all_goals try push_cast
  all_goals comp_eq

theorem d_vehicle_drag_coefficient__cd_prescaled (design_subsonic_drag_coeff_factor
    design_supersonic_drag_coeff_factor atmosphere_mach cd_prescaled : ℝ)  :
    HasDerivAt (fun t => out_vehicle_drag_coefficient design_subsonic_drag_coeff_factor design_supersonic_drag_coeff_factor atmosphere_mach t) (J_vehicle_drag_coefficient__cd_prescaled design_subsonic_drag_coeff_factor design_supersonic_drag_coeff_factor atmosphere_mach) cd_prescaled := by
  simp only [out_vehicle_drag_coefficient, J_vehicle_drag_coefficient__cd_prescaled, dcd_2, dcd, cd_scaled_2, cd_scaled]
  try split_ifs
  all_goals (apply hasDerivAt_of_eq; on_goal 1 => (repeat' comp_step))
  all_goals try comp_side
  all_goals try split_ifs
  all_goals try (exfalso; linarith)
  all_goals try simp only [mul_zero, zero_mul, add_zero, zero_add, sub_zero, zero_sub, mul_one, one_mul]
  all_goals try push_cast
  all_goals comp_eq

/-- Every partial derivative set by `ScaledCD` is the derivative of its output. -/
theorem partials (design_subsonic_drag_coeff_factor design_supersonic_drag_coeff_factor
    atmosphere_mach cd_prescaled : ℝ) :
    HasDerivAt (fun t => out_vehicle_drag_coefficient t design_supersonic_drag_coeff_factor
      atmosphere_mach cd_prescaled) (J_vehicle_drag_coefficient__design_subsonic_drag_coeff_factor
      atmosphere_mach cd_prescaled) design_subsonic_drag_coeff_factor ∧
    HasDerivAt (fun t => out_vehicle_drag_coefficient design_subsonic_drag_coeff_factor t
      atmosphere_mach cd_prescaled)
      (J_vehicle_drag_coefficient__design_supersonic_drag_coeff_factor atmosphere_mach
      cd_prescaled) design_supersonic_drag_coeff_factor ∧
    HasDerivAt (fun t => out_vehicle_drag_coefficient design_subsonic_drag_coeff_factor
      design_supersonic_drag_coeff_factor atmosphere_mach t)
      (J_vehicle_drag_coefficient__cd_prescaled design_subsonic_drag_coeff_factor
      design_supersonic_drag_coeff_factor atmosphere_mach) cd_prescaled :=
  ⟨d_vehicle_drag_coefficient__design_subsonic_drag_coeff_factor _ _ _ _,
    d_vehicle_drag_coefficient__design_supersonic_drag_coeff_factor _ _ _ _,
    d_vehicle_drag_coefficient__cd_prescaled _ _ _ _⟩

end Verif.Comp.AerodynamicsFlopsBasedDrag.ScaledCD

namespace Verif.Comp.AerodynamicsFlopsBasedDrag.SimpleDrag
open Real

/-- Output `vehicle_drag` of `SimpleDrag.compute`, aviary/subsystems/aerodynamics/flops_based/drag.py:132 -/
noncomputable def out_vehicle_drag (wing_area atmosphere_dynamic_pressure vehicle_drag_coefficient : ℝ) : ℝ :=
  (atmosphere_dynamic_pressure * wing_area) * vehicle_drag_coefficient

/-- Partial of `vehicle_drag` with respect to `wing_area` as set by `SimpleDrag`, aviary/subsystems/aerodynamics/flops_based/drag.py:139 -/
noncomputable def J_vehicle_drag__wing_area (atmosphere_dynamic_pressure vehicle_drag_coefficient : ℝ) : ℝ :=
  atmosphere_dynamic_pressure * vehicle_drag_coefficient

/-- Partial of `vehicle_drag` with respect to `atmosphere_dynamic_pressure` as set by `SimpleDrag`, aviary/subsystems/aerodynamics/flops_based/drag.py:140 -/
noncomputable def J_vehicle_drag__atmosphere_dynamic_pressure (wing_area vehicle_drag_coefficient : ℝ) : ℝ :=
  wing_area * vehicle_drag_coefficient

/-- Partial of `vehicle_drag` with respect to `vehicle_drag_coefficient` as set by `SimpleDrag`, aviary/subsystems/aerodynamics/flops_based/drag.py:141 -/
noncomputable def J_vehicle_drag__vehicle_drag_coefficient (wing_area atmosphere_dynamic_pressure : ℝ) : ℝ :=
  atmosphere_dynamic_pressure * wing_area

theorem d_vehicle_drag__wing_area (wing_area atmosphere_dynamic_pressure vehicle_drag_coefficient
    : ℝ)  :
    HasDerivAt (fun t => out_vehicle_drag t atmosphere_dynamic_pressure vehicle_drag_coefficient) (J_vehicle_drag__wing_area atmosphere_dynamic_pressure vehicle_drag_coefficient) wing_area := by
  simp only [out_vehicle_drag, J_vehicle_drag__wing_area]
  (apply hasDerivAt_of_eq; on_goal 1 => (repeat' comp_step))
  all_goals try comp_side
  all_goals try simp only [mul_zero, zero_mul, add_zero, zero_add, sub_zero, zero_sub, mul_one, one_mul]
  all_goals try push_cast
  all_goals comp_eq

theorem d_vehicle_drag__atmosphere_dynamic_pressure (wing_area atmosphere_dynamic_pressure
    vehicle_drag_coefficient : ℝ)  :
    HasDerivAt (fun t => out_vehicle_drag wing_area t vehicle_drag_coefficient) (J_vehicle_drag__atmosphere_dynamic_pressure wing_area vehicle_drag_coefficient) atmosphere_dynamic_pressure := by
  simp only [out_vehicle_drag, J_vehicle_drag__atmosphere_dynamic_pressure]
  (apply hasDerivAt_of_eq; on_goal 1 => (repeat' comp_step))
  all_goals try comp_side
  all_goals try simp only [mul_zero, zero_mul, add_zero, zero_add, sub_zero, zero_sub, mul_one, one_mul]
  all_goals try push_cast
  all_goals comp_eq

theorem d_vehicle_drag__vehicle_drag_coefficient (wing_area atmosphere_dynamic_pressure
    vehicle_drag_coefficient : ℝ)  :
    HasDerivAt (fun t => out_vehicle_drag wing_area atmosphere_dynamic_pressure t) (J_vehicle_drag__vehicle_drag_coefficient wing_area atmosphere_dynamic_pressure) vehicle_drag_coefficient := by
  simp only [out_vehicle_drag, J_vehicle_drag__vehicle_drag_coefficient]
  (apply hasDerivAt_of_eq; on_goal 1 => (repeat' comp_step))
  all_goals try comp_side
  all_goals try simp only [mul_zero, zero_mul, add_zero, zero_add, sub_zero, zero_sub, mul_one, one_mul]
  all_goals try push_cast
  all_goals comp_eq

/-- Every partial derivative set by `SimpleDrag` is the derivative of its output. -/
theorem partials (wing_area atmosphere_dynamic_pressure vehicle_drag_coefficient : ℝ) :
    HasDerivAt (fun t => out_vehicle_drag t atmosphere_dynamic_pressure vehicle_drag_coefficient)
      (J_vehicle_drag__wing_area atmosphere_dynamic_pressure vehicle_drag_coefficient) wing_area ∧
    HasDerivAt (fun t => out_vehicle_drag wing_area t vehicle_drag_coefficient)
      (J_vehicle_drag__atmosphere_dynamic_pressure wing_area vehicle_drag_coefficient)
      atmosphere_dynamic_pressure ∧
    HasDerivAt (fun t => out_vehicle_drag wing_area atmosphere_dynamic_pressure t)
      (J_vehicle_drag__vehicle_drag_coefficient wing_area atmosphere_dynamic_pressure)
      vehicle_drag_coefficient :=
  ⟨d_vehicle_drag__wing_area _ _ _, d_vehicle_drag__atmosphere_dynamic_pressure _ _ _,
    d_vehicle_drag__vehicle_drag_coefficient _ _ _⟩

end Verif.Comp.AerodynamicsFlopsBasedDrag.SimpleDrag

