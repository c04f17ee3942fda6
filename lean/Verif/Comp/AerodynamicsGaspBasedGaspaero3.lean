import Verif.Lemmas.CompDeriv

/-! # Partial derivatives of the components of `aviary/subsystems/aerodynamics/gasp_based/gaspaero.py`

One node of a vector component is modelled over the real numbers.  Each option that selects a
branch is fixed, one namespace per choice.  `out_x` is the output `x`, `J_x__y` the entry that
`compute_partials` (or `declare_partials` with `val`) assigns, `d_x__y` the proof that the entry is
the derivative.  Inputs an output does not take as argument have no influence on it. -/

set_option linter.all false

namespace Verif.Comp.AerodynamicsGaspBasedGaspaero.LiftCoeff
open Real

/-- Output `cl_base` of `LiftCoeff.compute`, aviary/subsystems/aerodynamics/gasp_based/gaspaero.py:1648 -/
noncomputable def out_cl_base (vehicle_angle_of_attack lift_curve_slope lift_ratio wing_zero_lift_angle kclge : ℝ) : ℝ :=
  ((kclge * lift_curve_slope) * (((vehicle_angle_of_attack - wing_zero_lift_angle) * π) / 180))
    * (1 + lift_ratio)

/-- Output `dcl_flaps_full` of `LiftCoeff.compute`, aviary/subsystems/aerodynamics/gasp_based/gaspaero.py:1649 -/
noncomputable def out_dcl_flaps_full (lift_ratio dcl_flaps_model : ℝ) : ℝ :=
  dcl_flaps_model * (1 + lift_ratio)

/-- Output `alpha_stall` of `LiftCoeff.compute`, aviary/subsystems/aerodynamics/gasp_based/gaspaero.py:1650 -/
noncomputable def out_alpha_stall (lift_curve_slope wing_zero_lift_angle cl_max_flaps dcl_flaps_model kclge : ℝ) : ℝ :=
  ((((cl_max_flaps - dcl_flaps_model) / (kclge * lift_curve_slope)) * 180) / π) +
    wing_zero_lift_angle

/-- Output `cl_max` of `LiftCoeff.compute`, aviary/subsystems/aerodynamics/gasp_based/gaspaero.py:1653 -/
noncomputable def out_cl_max (lift_ratio cl_max_flaps : ℝ) : ℝ := cl_max_flaps * (1 + lift_ratio)

/-- Output `cl_full_flaps` of `LiftCoeff.compute`, aviary/subsystems/aerodynamics/gasp_based/gaspaero.py:1655 -/
noncomputable def out_cl_full_flaps (vehicle_angle_of_attack lift_curve_slope lift_ratio wing_zero_lift_angle dcl_flaps_model kclge : ℝ) : ℝ :=
  (((kclge * lift_curve_slope) * (((vehicle_angle_of_attack - wing_zero_lift_angle) * π) / 180))
    * (1 + lift_ratio)) + (dcl_flaps_model * (1 + lift_ratio))

/-- Output `vehicle_lift_coefficient` of `LiftCoeff.compute`, aviary/subsystems/aerodynamics/gasp_based/gaspaero.py:1656 -/
noncomputable def out_vehicle_lift_coefficient (vehicle_angle_of_attack lift_curve_slope lift_ratio wing_zero_lift_angle dcl_flaps_model kclge flap_factor : ℝ) : ℝ :=
  (((kclge * lift_curve_slope) * (((vehicle_angle_of_attack - wing_zero_lift_angle) * π) / 180))
    * (1 + lift_ratio)) + (flap_factor * (dcl_flaps_model * (1 + lift_ratio)))

/-- Partial of `cl_base` with respect to `kclge` as set by `LiftCoeff`, aviary/subsystems/aerodynamics/gasp_based/gaspaero.py:1671 -/
noncomputable def J_cl_base__kclge (vehicle_angle_of_attack lift_curve_slope lift_ratio wing_zero_lift_angle : ℝ) : ℝ :=
  (lift_curve_slope * (((vehicle_angle_of_attack - wing_zero_lift_angle) * π) / 180)) * (1 +
    lift_ratio)

/-- Partial of `cl_base` with respect to `lift_curve_slope` as set by `LiftCoeff`, aviary/subsystems/aerodynamics/gasp_based/gaspaero.py:1672 -/
noncomputable def J_cl_base__lift_curve_slope (vehicle_angle_of_attack lift_ratio wing_zero_lift_angle kclge : ℝ) : ℝ :=
  (kclge * (((vehicle_angle_of_attack - wing_zero_lift_angle) * π) / 180)) * (1 + lift_ratio)

/-- Partial of `cl_base` with respect to `vehicle_angle_of_attack` as set by `LiftCoeff`, aviary/subsystems/aerodynamics/gasp_based/gaspaero.py:1673 -/
noncomputable def J_cl_base__vehicle_angle_of_attack (lift_curve_slope lift_ratio kclge : ℝ) : ℝ :=
  (((kclge * lift_curve_slope) * π) / 180) * (1 + lift_ratio)

/-- Partial of `cl_base` with respect to `wing_zero_lift_angle` as set by `LiftCoeff`, aviary/subsystems/aerodynamics/gasp_based/gaspaero.py:1676 -/
noncomputable def J_cl_base__wing_zero_lift_angle (lift_curve_slope lift_ratio kclge : ℝ) : ℝ :=
  ((((-kclge) * lift_curve_slope) * π) / 180) * (1 + lift_ratio)

/-- Partial of `cl_base` with respect to `lift_ratio` as set by `LiftCoeff`, aviary/subsystems/aerodynamics/gasp_based/gaspaero.py:1679 -/
noncomputable def J_cl_base__lift_ratio (vehicle_angle_of_attack lift_curve_slope wing_zero_lift_angle kclge : ℝ) : ℝ :=
  (kclge * lift_curve_slope) * (((vehicle_angle_of_attack - wing_zero_lift_angle) * π) / 180)

/-- Partial of `dcl_flaps_full` with respect to `dcl_flaps_model` as set by `LiftCoeff`, aviary/subsystems/aerodynamics/gasp_based/gaspaero.py:1681 -/
noncomputable def J_dcl_flaps_full__dcl_flaps_model (lift_ratio : ℝ) : ℝ := 1 + lift_ratio

/-- Partial of `dcl_flaps_full` with respect to `lift_ratio` as set by `LiftCoeff`, aviary/subsystems/aerodynamics/gasp_based/gaspaero.py:1682 -/
noncomputable def J_dcl_flaps_full__lift_ratio (dcl_flaps_model : ℝ) : ℝ := dcl_flaps_model

/-- Partial of `alpha_stall` with respect to `cl_max_flaps` as set by `LiftCoeff`, aviary/subsystems/aerodynamics/gasp_based/gaspaero.py:1684 -/
noncomputable def J_alpha_stall__cl_max_flaps (lift_curve_slope kclge : ℝ) : ℝ :=
  (180 / π) / (kclge * lift_curve_slope)

/-- Partial of `alpha_stall` with respect to `dcl_flaps_model` as set by `LiftCoeff`, aviary/subsystems/aerodynamics/gasp_based/gaspaero.py:1685 -/
noncomputable def J_alpha_stall__dcl_flaps_model (lift_curve_slope kclge : ℝ) : ℝ :=
  ((-180) / π) / (kclge * lift_curve_slope)

/-- Partial of `alpha_stall` with respect to `kclge` as set by `LiftCoeff`, aviary/subsystems/aerodynamics/gasp_based/gaspaero.py:1686 -/
noncomputable def J_alpha_stall__kclge (lift_curve_slope cl_max_flaps dcl_flaps_model kclge : ℝ) : ℝ :=
  -((((cl_max_flaps - dcl_flaps_model) / ((kclge ^ 2) * lift_curve_slope)) * 180) / π)

/-- Partial of `alpha_stall` with respect to `lift_curve_slope` as set by `LiftCoeff`, aviary/subsystems/aerodynamics/gasp_based/gaspaero.py:1689 -/
noncomputable def J_alpha_stall__lift_curve_slope (lift_curve_slope cl_max_flaps dcl_flaps_model kclge : ℝ) : ℝ :=
  -((((cl_max_flaps - dcl_flaps_model) / (kclge * (lift_curve_slope ^ 2))) * 180) / π)

/-- Partial of `alpha_stall` with respect to `wing_zero_lift_angle` as set by `LiftCoeff`, aviary/subsystems/aerodynamics/gasp_based/gaspaero.py:1692 -/
noncomputable def J_alpha_stall__wing_zero_lift_angle : ℝ := 1

/-- Partial of `cl_max` with respect to `cl_max_flaps` as set by `LiftCoeff`, aviary/subsystems/aerodynamics/gasp_based/gaspaero.py:1694 -/
noncomputable def J_cl_max__cl_max_flaps (lift_ratio : ℝ) : ℝ := 1 + lift_ratio

/-- Partial of `cl_max` with respect to `lift_ratio` as set by `LiftCoeff`, aviary/subsystems/aerodynamics/gasp_based/gaspaero.py:1695 -/
noncomputable def J_cl_max__lift_ratio (cl_max_flaps : ℝ) : ℝ := cl_max_flaps

/-- Partial of `cl_full_flaps` with respect to `kclge` as set by `LiftCoeff`, aviary/subsystems/aerodynamics/gasp_based/gaspaero.py:1697 -/
noncomputable def J_cl_full_flaps__kclge (vehicle_angle_of_attack lift_curve_slope lift_ratio wing_zero_lift_angle : ℝ) : ℝ :=
  (lift_curve_slope * (((vehicle_angle_of_attack - wing_zero_lift_angle) * π) / 180)) * (1 +
    lift_ratio)

/-- Partial of `cl_full_flaps` with respect to `lift_curve_slope` as set by `LiftCoeff`, aviary/subsystems/aerodynamics/gasp_based/gaspaero.py:1698 -/
noncomputable def J_cl_full_flaps__lift_curve_slope (vehicle_angle_of_attack lift_ratio wing_zero_lift_angle kclge : ℝ) : ℝ :=
  (kclge * (((vehicle_angle_of_attack - wing_zero_lift_angle) * π) / 180)) * (1 + lift_ratio)

/-- Partial of `cl_full_flaps` with respect to `vehicle_angle_of_attack` as set by `LiftCoeff`, aviary/subsystems/aerodynamics/gasp_based/gaspaero.py:1699 -/
noncomputable def J_cl_full_flaps__vehicle_angle_of_attack (lift_curve_slope lift_ratio kclge : ℝ) : ℝ :=
  (((kclge * lift_curve_slope) * π) / 180) * (1 + lift_ratio)

/-- Partial of `cl_full_flaps` with respect to `wing_zero_lift_angle` as set by `LiftCoeff`, aviary/subsystems/aerodynamics/gasp_based/gaspaero.py:1702 -/
noncomputable def J_cl_full_flaps__wing_zero_lift_angle (lift_curve_slope lift_ratio kclge : ℝ) : ℝ :=
  ((((-kclge) * lift_curve_slope) * π) / 180) * (1 + lift_ratio)

/-- Partial of `cl_full_flaps` with respect to `lift_ratio` as set by `LiftCoeff`, aviary/subsystems/aerodynamics/gasp_based/gaspaero.py:1705 -/
noncomputable def J_cl_full_flaps__lift_ratio (vehicle_angle_of_attack lift_curve_slope wing_zero_lift_angle dcl_flaps_model kclge : ℝ) : ℝ :=
  ((kclge * lift_curve_slope) * (((vehicle_angle_of_attack - wing_zero_lift_angle) * π) / 180))
    + dcl_flaps_model

/-- Partial of `cl_full_flaps` with respect to `dcl_flaps_model` as set by `LiftCoeff`, aviary/subsystems/aerodynamics/gasp_based/gaspaero.py:1708 -/
noncomputable def J_cl_full_flaps__dcl_flaps_model (lift_ratio : ℝ) : ℝ := 1 + lift_ratio

/-- Partial of `vehicle_lift_coefficient` with respect to `kclge` as set by `LiftCoeff`, aviary/subsystems/aerodynamics/gasp_based/gaspaero.py:1710 -/
noncomputable def J_vehicle_lift_coefficient__kclge (vehicle_angle_of_attack lift_curve_slope lift_ratio wing_zero_lift_angle : ℝ) : ℝ :=
  (lift_curve_slope * (((vehicle_angle_of_attack - wing_zero_lift_angle) * π) / 180)) * (1 +
    lift_ratio)

/-- Partial of `vehicle_lift_coefficient` with respect to `lift_curve_slope` as set by `LiftCoeff`, aviary/subsystems/aerodynamics/gasp_based/gaspaero.py:1711 -/
noncomputable def J_vehicle_lift_coefficient__lift_curve_slope (vehicle_angle_of_attack lift_ratio wing_zero_lift_angle kclge : ℝ) : ℝ :=
  (kclge * (((vehicle_angle_of_attack - wing_zero_lift_angle) * π) / 180)) * (1 + lift_ratio)

/-- Partial of `vehicle_lift_coefficient` with respect to `vehicle_angle_of_attack` as set by `LiftCoeff`, aviary/subsystems/aerodynamics/gasp_based/gaspaero.py:1712 -/
noncomputable def J_vehicle_lift_coefficient__vehicle_angle_of_attack (lift_curve_slope lift_ratio kclge : ℝ) : ℝ :=
  (((kclge * lift_curve_slope) * π) / 180) * (1 + lift_ratio)

/-- Partial of `vehicle_lift_coefficient` with respect to `wing_zero_lift_angle` as set by `LiftCoeff`, aviary/subsystems/aerodynamics/gasp_based/gaspaero.py:1715 -/
noncomputable def J_vehicle_lift_coefficient__wing_zero_lift_angle (lift_curve_slope lift_ratio kclge : ℝ) : ℝ :=
  ((((-kclge) * lift_curve_slope) * π) / 180) * (1 + lift_ratio)

/-- Partial of `vehicle_lift_coefficient` with respect to `flap_factor` as set by `LiftCoeff`, aviary/subsystems/aerodynamics/gasp_based/gaspaero.py:1719 -/
noncomputable def J_vehicle_lift_coefficient__flap_factor (lift_ratio dcl_flaps_model : ℝ) : ℝ :=
  dcl_flaps_model * (1 + lift_ratio)

/-- Partial of `vehicle_lift_coefficient` with respect to `lift_ratio` as set by `LiftCoeff`, aviary/subsystems/aerodynamics/gasp_based/gaspaero.py:1720 -/
noncomputable def J_vehicle_lift_coefficient__lift_ratio (vehicle_angle_of_attack lift_curve_slope wing_zero_lift_angle dcl_flaps_model kclge flap_factor : ℝ) : ℝ :=
  ((kclge * lift_curve_slope) * (((vehicle_angle_of_attack - wing_zero_lift_angle) * π) / 180))
    + (flap_factor * dcl_flaps_model)

/-- Partial of `vehicle_lift_coefficient` with respect to `dcl_flaps_model` as set by `LiftCoeff`, aviary/subsystems/aerodynamics/gasp_based/gaspaero.py:1723 -/
noncomputable def J_vehicle_lift_coefficient__dcl_flaps_model (lift_ratio flap_factor : ℝ) : ℝ :=
  flap_factor * (1 + lift_ratio)

theorem d_cl_base__vehicle_angle_of_attack (vehicle_angle_of_attack lift_curve_slope lift_ratio
    wing_zero_lift_angle kclge : ℝ)  :
    HasDerivAt (fun t => out_cl_base t lift_curve_slope lift_ratio wing_zero_lift_angle kclge) (J_cl_base__vehicle_angle_of_attack lift_curve_slope lift_ratio kclge) vehicle_angle_of_attack := by
  simp only [out_cl_base, J_cl_base__vehicle_angle_of_attack]
  (apply hasDerivAt_of_eq; on_goal 1 => (repeat' comp_step))
  all_goals try comp_side
  all_goals try simp only [mul_zero, zero_mul, add_zero, zero_add, sub_zero, zero_sub, mul_one, one_mul]
  all_goals try push_cast
  all_goals comp_eq

theorem d_cl_base__lift_curve_slope (vehicle_angle_of_attack lift_curve_slope lift_ratio
    wing_zero_lift_angle kclge : ℝ)  :
    HasDerivAt (fun t => out_cl_base vehicle_angle_of_attack t lift_ratio wing_zero_lift_angle kclge) (J_cl_base__lift_curve_slope vehicle_angle_of_attack lift_ratio wing_zero_lift_angle kclge) lift_curve_slope := by
  simp only [out_cl_base, J_cl_base__lift_curve_slope]
  (apply hasDerivAt_of_eq; on_goal 1 => (repeat' comp_step))
  all_goals try comp_side
  all_goals try simp only [mul_zero, zero_mul, add_zero, zero_add, sub_zero, zero_sub, mul_one, one_mul]
  all_goals try push_cast
  all_goals comp_eq

theorem d_cl_base__lift_ratio (vehicle_angle_of_attack lift_curve_slope lift_ratio
    wing_zero_lift_angle kclge : ℝ)  :
    HasDerivAt (fun t => out_cl_base vehicle_angle_of_attack lift_curve_slope t wing_zero_lift_angle kclge) (J_cl_base__lift_ratio vehicle_angle_of_attack lift_curve_slope wing_zero_lift_angle kclge) lift_ratio := by
  simp only [out_cl_base, J_cl_base__lift_ratio]
  (apply hasDerivAt_of_eq; on_goal 1 => (repeat' comp_step))
  all_goals try comp_side
  all_goals try simp only [mul_zero, zero_mul, add_zero, zero_add, sub_zero, zero_sub, mul_one, one_mul]
  all_goals try push_cast
  all_goals comp_eq

theorem d_cl_base__wing_zero_lift_angle (vehicle_angle_of_attack lift_curve_slope lift_ratio
    wing_zero_lift_angle kclge : ℝ)  :
    HasDerivAt (fun t => out_cl_base vehicle_angle_of_attack lift_curve_slope lift_ratio t kclge) (J_cl_base__wing_zero_lift_angle lift_curve_slope lift_ratio kclge) wing_zero_lift_angle := by
  simp only [out_cl_base, J_cl_base__wing_zero_lift_angle]
  (apply hasDerivAt_of_eq; on_goal 1 => (repeat' comp_step))
  all_goals try comp_side
  all_goals try simp only [mul_zero, zero_mul, add_zero, zero_add, sub_zero, zero_sub, mul_one, one_mul]
  all_goals try push_cast
  all_goals comp_eq

theorem d_cl_base__kclge (vehicle_angle_of_attack lift_curve_slope lift_ratio wing_zero_lift_angle
    kclge : ℝ)  :
    HasDerivAt (fun t => out_cl_base vehicle_angle_of_attack lift_curve_slope lift_ratio wing_zero_lift_angle t) (J_cl_base__kclge vehicle_angle_of_attack lift_curve_slope lift_ratio wing_zero_lift_angle) kclge := by
  simp only [out_cl_base, J_cl_base__kclge]
  (apply hasDerivAt_of_eq; on_goal 1 => (repeat' comp_step))
  all_goals try comp_side
  all_goals try simp only [mul_zero, zero_mul, add_zero, zero_add, sub_zero, zero_sub, mul_one, one_mul]
  all_goals try push_cast
  all_goals comp_eq

theorem d_dcl_flaps_full__lift_ratio (lift_ratio dcl_flaps_model : ℝ)  :
    HasDerivAt (fun t => out_dcl_flaps_full t dcl_flaps_model) (J_dcl_flaps_full__lift_ratio dcl_flaps_model) lift_ratio := by
  simp only [out_dcl_flaps_full, J_dcl_flaps_full__lift_ratio]
  (apply hasDerivAt_of_eq; on_goal 1 => (repeat' comp_step))
  all_goals try comp_side
  all_goals try simp only [mul_zero, zero_mul, add_zero, zero_add, sub_zero, zero_sub, mul_one, one_mul]
  all_goals try push_cast
  all_goals comp_eq

theorem d_dcl_flaps_full__dcl_flaps_model (lift_ratio dcl_flaps_model : ℝ)  :
    HasDerivAt (fun t => out_dcl_flaps_full lift_ratio t) (J_dcl_flaps_full__dcl_flaps_model lift_ratio) dcl_flaps_model := by
  simp only [out_dcl_flaps_full, J_dcl_flaps_full__dcl_flaps_model]
  (apply hasDerivAt_of_eq; on_goal 1 => (repeat' comp_step))
  all_goals try comp_side
  all_goals try simp only [mul_zero, zero_mul, add_zero, zero_add, sub_zero, zero_sub, mul_one, one_mul]
  all_goals try push_cast
  all_goals comp_eq

theorem d_alpha_stall__lift_curve_slope (lift_curve_slope wing_zero_lift_angle cl_max_flaps
    dcl_flaps_model kclge : ℝ) (h0 : 0 < kclge) (h1 : 0 < lift_curve_slope) :
    HasDerivAt (fun t => out_alpha_stall t wing_zero_lift_angle cl_max_flaps dcl_flaps_model kclge) (J_alpha_stall__lift_curve_slope lift_curve_slope cl_max_flaps dcl_flaps_model kclge) lift_curve_slope := by
  simp only [out_alpha_stall, J_alpha_stall__lift_curve_slope]
  (apply hasDerivAt_of_eq; on_goal 1 => (repeat' comp_step))
  all_goals try comp_side
  all_goals try simp only [mul_zero, zero_mul, add_zero, zero_add, sub_zero, zero_sub, mul_one, one_mul]
  all_goals try push_cast
  all_goals comp_eq

theorem d_alpha_stall__wing_zero_lift_angle (lift_curve_slope wing_zero_lift_angle cl_max_flaps
    dcl_flaps_model kclge : ℝ) (h0 : 0 < kclge) (h1 : 0 < lift_curve_slope) :
    HasDerivAt (fun t => out_alpha_stall lift_curve_slope t cl_max_flaps dcl_flaps_model kclge) (J_alpha_stall__wing_zero_lift_angle) wing_zero_lift_angle := by
  simp only [out_alpha_stall, J_alpha_stall__wing_zero_lift_angle]
  (apply hasDerivAt_of_eq; on_goal 1 => (repeat' comp_step))
  all_goals try comp_side
  all_goals try simp only [mul_zero, zero_mul, add_zero, zero_add, sub_zero, zero_sub, mul_one, one_mul]
  all_goals try push_cast
  all_goals comp_eq

theorem d_alpha_stall__cl_max_flaps (lift_curve_slope wing_zero_lift_angle cl_max_flaps
    dcl_flaps_model kclge : ℝ) (h0 : 0 < kclge) (h1 : 0 < lift_curve_slope) :
    HasDerivAt (fun t => out_alpha_stall lift_curve_slope wing_zero_lift_angle t dcl_flaps_model kclge) (J_alpha_stall__cl_max_flaps lift_curve_slope kclge) cl_max_flaps := by
  simp only [out_alpha_stall, J_alpha_stall__cl_max_flaps]
  (apply hasDerivAt_of_eq; on_goal 1 => (repeat' comp_step))
  all_goals try comp_side
  all_goals try simp only [mul_zero, zero_mul, add_zero, zero_add, sub_zero, zero_sub, mul_one, one_mul]
  all_goals try push_cast
  all_goals comp_eq

theorem d_alpha_stall__dcl_flaps_model (lift_curve_slope wing_zero_lift_angle cl_max_flaps
    dcl_flaps_model kclge : ℝ) (h0 : 0 < kclge) (h1 : 0 < lift_curve_slope) :
    HasDerivAt (fun t => out_alpha_stall lift_curve_slope wing_zero_lift_angle cl_max_flaps t kclge) (J_alpha_stall__dcl_flaps_model lift_curve_slope kclge) dcl_flaps_model := by
  simp only [out_alpha_stall, J_alpha_stall__dcl_flaps_model]
  (apply hasDerivAt_of_eq; on_goal 1 => (repeat' comp_step))
  all_goals try comp_side
  all_goals try simp only [mul_zero, zero_mul, add_zero, zero_add, sub_zero, zero_sub, mul_one, one_mul]
  all_goals try push_cast
  all_goals comp_eq

theorem d_alpha_stall__kclge (lift_curve_slope wing_zero_lift_angle cl_max_flaps dcl_flaps_model
    kclge : ℝ) (h0 : 0 < kclge) (h1 : 0 < lift_curve_slope) :
    HasDerivAt (fun t => out_alpha_stall lift_curve_slope wing_zero_lift_angle cl_max_flaps dcl_flaps_model t) (J_alpha_stall__kclge lift_curve_slope cl_max_flaps dcl_flaps_model kclge) kclge := by
  simp only [out_alpha_stall, J_alpha_stall__kclge]
  (apply hasDerivAt_of_eq; on_goal 1 => (repeat' comp_step))
  all_goals try comp_side
  all_goals try simp only [mul_zero, zero_mul, add_zero, zero_add, sub_zero, zero_sub, mul_one, one_mul]
  all_goals try push_cast
  all_goals comp_eq

theorem d_cl_max__lift_ratio (lift_ratio cl_max_flaps : ℝ)  :
    HasDerivAt (fun t => out_cl_max t cl_max_flaps) (J_cl_max__lift_ratio cl_max_flaps) lift_ratio := by
  simp only [out_cl_max, J_cl_max__lift_ratio]
  (apply hasDerivAt_of_eq; on_goal 1 => (repeat' comp_step))
  all_goals try comp_side
  all_goals try simp only [mul_zero, zero_mul, add_zero, zero_add, sub_zero, zero_sub, mul_one, one_mul]
  all_goals try push_cast
  all_goals comp_eq

theorem d_cl_max__cl_max_flaps (lift_ratio cl_max_flaps : ℝ)  :
    HasDerivAt (fun t => out_cl_max lift_ratio t) (J_cl_max__cl_max_flaps lift_ratio) cl_max_flaps := by
  simp only [out_cl_max, J_cl_max__cl_max_flaps]
  (apply hasDerivAt_of_eq; on_goal 1 => (repeat' comp_step))
  all_goals try comp_side
  all_goals try simp only [mul_zero, zero_mul, add_zero, zero_add, sub_zero, zero_sub, mul_one, one_mul]
  all_goals try push_cast
  all_goals comp_eq

theorem d_cl_full_flaps__vehicle_angle_of_attack (vehicle_angle_of_attack lift_curve_slope
    lift_ratio wing_zero_lift_angle dcl_flaps_model kclge : ℝ)  :
    HasDerivAt (fun t => out_cl_full_flaps t lift_curve_slope lift_ratio wing_zero_lift_angle dcl_flaps_model kclge) (J_cl_full_flaps__vehicle_angle_of_attack lift_curve_slope lift_ratio kclge) vehicle_angle_of_attack := by
  simp only [out_cl_full_flaps, J_cl_full_flaps__vehicle_angle_of_attack]
  (apply hasDerivAt_of_eq; on_goal 1 => (repeat' comp_step))
  all_goals try comp_side
  all_goals try simp only [mul_zero, zero_mul, add_zero, zero_add, sub_zero, zero_sub, mul_one, one_mul]
  all_goals try push_cast
  all_goals comp_eq

theorem d_cl_full_flaps__lift_curve_slope (vehicle_angle_of_attack lift_curve_slope lift_ratio
    wing_zero_lift_angle dcl_flaps_model kclge : ℝ)  :
    HasDerivAt (fun t => out_cl_full_flaps vehicle_angle_of_attack t lift_ratio wing_zero_lift_angle dcl_flaps_model kclge) (J_cl_full_flaps__lift_curve_slope vehicle_angle_of_attack lift_ratio wing_zero_lift_angle kclge) lift_curve_slope := by
  simp only [out_cl_full_flaps, J_cl_full_flaps__lift_curve_slope]
  (apply hasDerivAt_of_eq; on_goal 1 => (repeat' comp_step))
  all_goals try comp_side
  all_goals try simp only [mul_zero, zero_mul, add_zero, zero_add, sub_zero, zero_sub, mul_one, one_mul]
  all_goals try push_cast
  all_goals comp_eq

theorem d_cl_full_flaps__lift_ratio (vehicle_angle_of_attack lift_curve_slope lift_ratio
    wing_zero_lift_angle dcl_flaps_model kclge : ℝ)  :
    HasDerivAt (fun t => out_cl_full_flaps vehicle_angle_of_attack lift_curve_slope t wing_zero_lift_angle dcl_flaps_model kclge) (J_cl_full_flaps__lift_ratio vehicle_angle_of_attack lift_curve_slope wing_zero_lift_angle dcl_flaps_model kclge) lift_ratio := by
  simp only [out_cl_full_flaps, J_cl_full_flaps__lift_ratio]
  (apply hasDerivAt_of_eq; on_goal 1 => (repeat' comp_step))
  all_goals try comp_side
  all_goals try simp only [mul_zero, zero_mul, add_zero, zero_add, sub_zero, zero_sub, mul_one, one_mul]
  all_goals try push_cast
  all_goals comp_eq

theorem d_cl_full_flaps__wing_zero_lift_angle (vehicle_angle_of_attack lift_curve_slope lift_ratio
    wing_zero_lift_angle dcl_flaps_model kclge : ℝ)  :
    HasDerivAt (fun t => out_cl_full_flaps vehicle_angle_of_attack lift_curve_slope lift_ratio t dcl_flaps_model kclge) (J_cl_full_flaps__wing_zero_lift_angle lift_curve_slope lift_ratio kclge) wing_zero_lift_angle := by
  simp only [out_cl_full_flaps, J_cl_full_flaps__wing_zero_lift_angle]
  (apply hasDerivAt_of_eq; on_goal 1 => (repeat' comp_step))
  all_goals try comp_side
  all_goals try simp only [mul_zero, zero_mul, add_zero, zero_add, sub_zero, zero_sub, mul_one, one_mul]
  all_goals try push_cast
  all_goals comp_eq

theorem d_cl_full_flaps__dcl_flaps_model (vehicle_angle_of_attack lift_curve_slope lift_ratio
    wing_zero_lift_angle dcl_flaps_model kclge : ℝ)  :
    HasDerivAt (fun t => out_cl_full_flaps vehicle_angle_of_attack lift_curve_slope lift_ratio wing_zero_lift_angle t kclge) (J_cl_full_flaps__dcl_flaps_model lift_ratio) dcl_flaps_model := by
  simp only [out_cl_full_flaps, J_cl_full_flaps__dcl_flaps_model]
  (apply hasDerivAt_of_eq; on_goal 1 => (repeat' comp_step))
  all_goals try comp_side
  all_goals try simp only [mul_zero, zero_mul, add_zero, zero_add, sub_zero, zero_sub, mul_one, one_mul]
  all_goals try push_cast
  all_goals comp_eq

theorem d_cl_full_flaps__kclge (vehicle_angle_of_attack lift_curve_slope lift_ratio
    wing_zero_lift_angle dcl_flaps_model kclge : ℝ)  :
    HasDerivAt (fun t => out_cl_full_flaps vehicle_angle_of_attack lift_curve_slope lift_ratio wing_zero_lift_angle dcl_flaps_model t) (J_cl_full_flaps__kclge vehicle_angle_of_attack lift_curve_slope lift_ratio wing_zero_lift_angle) kclge := by
  simp only [out_cl_full_flaps, J_cl_full_flaps__kclge]
  (apply hasDerivAt_of_eq; on_goal 1 => (repeat' comp_step))
  all_goals try comp_side
  all_goals try simp only [mul_zero, zero_mul, add_zero, zero_add, sub_zero, zero_sub, mul_one, one_mul]
  all_goals try push_cast
  all_goals comp_eq

theorem d_vehicle_lift_coefficient__vehicle_angle_of_attack (vehicle_angle_of_attack
    lift_curve_slope lift_ratio wing_zero_lift_angle dcl_flaps_model kclge flap_factor : ℝ)  :
    HasDerivAt (fun t => out_vehicle_lift_coefficient t lift_curve_slope lift_ratio wing_zero_lift_angle dcl_flaps_model kclge flap_factor) (J_vehicle_lift_coefficient__vehicle_angle_of_attack lift_curve_slope lift_ratio kclge) vehicle_angle_of_attack := by
  simp only [out_vehicle_lift_coefficient, J_vehicle_lift_coefficient__vehicle_angle_of_attack]
  (apply hasDerivAt_of_eq; on_goal 1 => (repeat' comp_step))
  all_goals try comp_side
  all_goals try simp only [mul_zero, zero_mul, add_zero, zero_add, sub_zero, zero_sub, mul_one, one_mul]
  all_goals try push_cast
  all_goals comp_eq

theorem d_vehicle_lift_coefficient__lift_curve_slope (vehicle_angle_of_attack lift_curve_slope
    lift_ratio wing_zero_lift_angle dcl_flaps_model kclge flap_factor : ℝ)  :
    HasDerivAt (fun t => out_vehicle_lift_coefficient vehicle_angle_of_attack t lift_ratio wing_zero_lift_angle dcl_flaps_model kclge flap_factor) (J_vehicle_lift_coefficient__lift_curve_slope vehicle_angle_of_attack lift_ratio wing_zero_lift_angle kclge) lift_curve_slope := by
  simp only [out_vehicle_lift_coefficient, J_vehicle_lift_coefficient__lift_curve_slope]
  (apply hasDerivAt_of_eq; on_goal 1 => (repeat' comp_step))
  all_goals try comp_side
  all_goals try simp only [mul_zero, zero_mul, add_zero, zero_add, sub_zero, zero_sub, mul_one, one_mul]
  all_goals try push_cast
  all_goals comp_eq

theorem d_vehicle_lift_coefficient__lift_ratio (vehicle_angle_of_attack lift_curve_slope
    lift_ratio wing_zero_lift_angle dcl_flaps_model kclge flap_factor : ℝ)  :
    HasDerivAt (fun t => out_vehicle_lift_coefficient vehicle_angle_of_attack lift_curve_slope t wing_zero_lift_angle dcl_flaps_model kclge flap_factor) (J_vehicle_lift_coefficient__lift_ratio vehicle_angle_of_attack lift_curve_slope wing_zero_lift_angle dcl_flaps_model kclge flap_factor) lift_ratio := by
  simp only [out_vehicle_lift_coefficient, J_vehicle_lift_coefficient__lift_ratio]
  (apply hasDerivAt_of_eq; on_goal 1 => (repeat' comp_step))
  all_goals try comp_side
  all_goals try simp only [mul_zero, zero_mul, add_zero, zero_add, sub_zero, zero_sub, mul_one, one_mul]
  all_goals try push_cast
  all_goals comp_eq

theorem d_vehicle_lift_coefficient__wing_zero_lift_angle (vehicle_angle_of_attack lift_curve_slope
    lift_ratio wing_zero_lift_angle dcl_flaps_model kclge flap_factor : ℝ)  :
    HasDerivAt (fun t => out_vehicle_lift_coefficient vehicle_angle_of_attack lift_curve_slope lift_ratio t dcl_flaps_model kclge flap_factor) (J_vehicle_lift_coefficient__wing_zero_lift_angle lift_curve_slope lift_ratio kclge) wing_zero_lift_angle := by
  simp only [out_vehicle_lift_coefficient, J_vehicle_lift_coefficient__wing_zero_lift_angle]
  (apply hasDerivAt_of_eq; on_goal 1 => (repeat' comp_step))
  all_goals try comp_side
  all_goals try simp only [mul_zero, zero_mul, add_zero, zero_add, sub_zero, zero_sub, mul_one, one_mul]
  all_goals try push_cast
  all_goals comp_eq

theorem d_vehicle_lift_coefficient__dcl_flaps_model (vehicle_angle_of_attack lift_curve_slope
    lift_ratio wing_zero_lift_angle dcl_flaps_model kclge flap_factor : ℝ)  :
    HasDerivAt (fun t => out_vehicle_lift_coefficient vehicle_angle_of_attack lift_curve_slope lift_ratio wing_zero_lift_angle t kclge flap_factor) (J_vehicle_lift_coefficient__dcl_flaps_model lift_ratio flap_factor) dcl_flaps_model := by
  simp only [out_vehicle_lift_coefficient, J_vehicle_lift_coefficient__dcl_flaps_model]
  (apply hasDerivAt_of_eq; on_goal 1 => (repeat' comp_step))
  all_goals try comp_side
  all_goals try simp only [mul_zero, zero_mul, add_zero, zero_add, sub_zero, zero_sub, mul_one, one_mul]
  all_goals try push_cast
  all_goals comp_eq

theorem d_vehicle_lift_coefficient__kclge (vehicle_angle_of_attack lift_curve_slope lift_ratio
    wing_zero_lift_angle dcl_flaps_model kclge flap_factor : ℝ)  :
    HasDerivAt (fun t => out_vehicle_lift_coefficient vehicle_angle_of_attack lift_curve_slope lift_ratio wing_zero_lift_angle dcl_flaps_model t flap_factor) (J_vehicle_lift_coefficient__kclge vehicle_angle_of_attack lift_curve_slope lift_ratio wing_zero_lift_angle) kclge := by
  simp only [out_vehicle_lift_coefficient, J_vehicle_lift_coefficient__kclge]
  (apply hasDerivAt_of_eq; on_goal 1 => (repeat' comp_step))
  all_goals try comp_side
  all_goals try simp only [mul_zero, zero_mul, add_zero, zero_add, sub_zero, zero_sub, mul_one, one_mul]
  all_goals try push_cast
  all_goals comp_eq

theorem d_vehicle_lift_coefficient__flap_factor (vehicle_angle_of_attack lift_curve_slope
    lift_ratio wing_zero_lift_angle dcl_flaps_model kclge flap_factor : ℝ)  :
    HasDerivAt (fun t => out_vehicle_lift_coefficient vehicle_angle_of_attack lift_curve_slope lift_ratio wing_zero_lift_angle dcl_flaps_model kclge t) (J_vehicle_lift_coefficient__flap_factor lift_ratio dcl_flaps_model) flap_factor := by
  simp only [out_vehicle_lift_coefficient, J_vehicle_lift_coefficient__flap_factor]
  (apply hasDerivAt_of_eq; on_goal 1 => (repeat' comp_step))
  all_goals try comp_side
  all_goals try simp only [mul_zero, zero_mul, add_zero, zero_add, sub_zero, zero_sub, mul_one, one_mul]
  all_goals try push_cast
  all_goals comp_eq

/-- Every partial derivative set by `LiftCoeff` is the derivative of its output. -/
theorem partials (vehicle_angle_of_attack lift_curve_slope lift_ratio wing_zero_lift_angle
    cl_max_flaps dcl_flaps_model kclge flap_factor : ℝ) (h0 : 0 < kclge) (h1 : 0 <
    lift_curve_slope) :
    HasDerivAt (fun t => out_cl_base t lift_curve_slope lift_ratio wing_zero_lift_angle kclge)
      (J_cl_base__vehicle_angle_of_attack lift_curve_slope lift_ratio kclge)
      vehicle_angle_of_attack ∧
    HasDerivAt (fun t => out_cl_base vehicle_angle_of_attack t lift_ratio wing_zero_lift_angle kclge)
      (J_cl_base__lift_curve_slope vehicle_angle_of_attack lift_ratio wing_zero_lift_angle kclge)
      lift_curve_slope ∧
    HasDerivAt (fun t => out_cl_base vehicle_angle_of_attack lift_curve_slope t wing_zero_lift_angle
      kclge) (J_cl_base__lift_ratio vehicle_angle_of_attack lift_curve_slope wing_zero_lift_angle
      kclge) lift_ratio ∧
    HasDerivAt (fun t => out_cl_base vehicle_angle_of_attack lift_curve_slope lift_ratio t kclge)
      (J_cl_base__wing_zero_lift_angle lift_curve_slope lift_ratio kclge) wing_zero_lift_angle ∧
    HasDerivAt (fun t => out_cl_base vehicle_angle_of_attack lift_curve_slope lift_ratio
      wing_zero_lift_angle t) (J_cl_base__kclge vehicle_angle_of_attack lift_curve_slope
      lift_ratio wing_zero_lift_angle) kclge ∧
    HasDerivAt (fun t => out_dcl_flaps_full t dcl_flaps_model) (J_dcl_flaps_full__lift_ratio
      dcl_flaps_model) lift_ratio ∧
    HasDerivAt (fun t => out_dcl_flaps_full lift_ratio t) (J_dcl_flaps_full__dcl_flaps_model
      lift_ratio) dcl_flaps_model ∧
    HasDerivAt (fun t => out_alpha_stall t wing_zero_lift_angle cl_max_flaps dcl_flaps_model kclge)
      (J_alpha_stall__lift_curve_slope lift_curve_slope cl_max_flaps dcl_flaps_model kclge)
      lift_curve_slope ∧
    HasDerivAt (fun t => out_alpha_stall lift_curve_slope t cl_max_flaps dcl_flaps_model kclge)
      (J_alpha_stall__wing_zero_lift_angle) wing_zero_lift_angle ∧
    HasDerivAt (fun t => out_alpha_stall lift_curve_slope wing_zero_lift_angle t dcl_flaps_model
      kclge) (J_alpha_stall__cl_max_flaps lift_curve_slope kclge) cl_max_flaps ∧
    HasDerivAt (fun t => out_alpha_stall lift_curve_slope wing_zero_lift_angle cl_max_flaps t kclge)
      (J_alpha_stall__dcl_flaps_model lift_curve_slope kclge) dcl_flaps_model ∧
    HasDerivAt (fun t => out_alpha_stall lift_curve_slope wing_zero_lift_angle cl_max_flaps
      dcl_flaps_model t) (J_alpha_stall__kclge lift_curve_slope cl_max_flaps dcl_flaps_model
      kclge) kclge ∧
    HasDerivAt (fun t => out_cl_max t cl_max_flaps) (J_cl_max__lift_ratio cl_max_flaps) lift_ratio ∧
    HasDerivAt (fun t => out_cl_max lift_ratio t) (J_cl_max__cl_max_flaps lift_ratio) cl_max_flaps ∧
    HasDerivAt (fun t => out_cl_full_flaps t lift_curve_slope lift_ratio wing_zero_lift_angle
      dcl_flaps_model kclge) (J_cl_full_flaps__vehicle_angle_of_attack lift_curve_slope lift_ratio
      kclge) vehicle_angle_of_attack ∧
    HasDerivAt (fun t => out_cl_full_flaps vehicle_angle_of_attack t lift_ratio wing_zero_lift_angle
      dcl_flaps_model kclge) (J_cl_full_flaps__lift_curve_slope vehicle_angle_of_attack lift_ratio
      wing_zero_lift_angle kclge) lift_curve_slope ∧
    HasDerivAt (fun t => out_cl_full_flaps vehicle_angle_of_attack lift_curve_slope t
      wing_zero_lift_angle dcl_flaps_model kclge) (J_cl_full_flaps__lift_ratio
      vehicle_angle_of_attack lift_curve_slope wing_zero_lift_angle dcl_flaps_model kclge)
      lift_ratio ∧
    HasDerivAt (fun t => out_cl_full_flaps vehicle_angle_of_attack lift_curve_slope lift_ratio t
      dcl_flaps_model kclge) (J_cl_full_flaps__wing_zero_lift_angle lift_curve_slope lift_ratio
      kclge) wing_zero_lift_angle ∧
    HasDerivAt (fun t => out_cl_full_flaps vehicle_angle_of_attack lift_curve_slope lift_ratio
      wing_zero_lift_angle t kclge) (J_cl_full_flaps__dcl_flaps_model lift_ratio) dcl_flaps_model ∧
    HasDerivAt (fun t => out_cl_full_flaps vehicle_angle_of_attack lift_curve_slope lift_ratio
      wing_zero_lift_angle dcl_flaps_model t) (J_cl_full_flaps__kclge vehicle_angle_of_attack
      lift_curve_slope lift_ratio wing_zero_lift_angle) kclge ∧
    HasDerivAt (fun t => out_vehicle_lift_coefficient t lift_curve_slope lift_ratio
      wing_zero_lift_angle dcl_flaps_model kclge flap_factor)
      (J_vehicle_lift_coefficient__vehicle_angle_of_attack lift_curve_slope lift_ratio kclge)
      vehicle_angle_of_attack ∧
    HasDerivAt (fun t => out_vehicle_lift_coefficient vehicle_angle_of_attack t lift_ratio
      wing_zero_lift_angle dcl_flaps_model kclge flap_factor)
      (J_vehicle_lift_coefficient__lift_curve_slope vehicle_angle_of_attack lift_ratio
      wing_zero_lift_angle kclge) lift_curve_slope ∧
    HasDerivAt (fun t => out_vehicle_lift_coefficient vehicle_angle_of_attack lift_curve_slope t
      wing_zero_lift_angle dcl_flaps_model kclge flap_factor)
      (J_vehicle_lift_coefficient__lift_ratio vehicle_angle_of_attack lift_curve_slope
      wing_zero_lift_angle dcl_flaps_model kclge flap_factor) lift_ratio ∧
    HasDerivAt (fun t => out_vehicle_lift_coefficient vehicle_angle_of_attack lift_curve_slope
      lift_ratio t dcl_flaps_model kclge flap_factor)
      (J_vehicle_lift_coefficient__wing_zero_lift_angle lift_curve_slope lift_ratio kclge)
      wing_zero_lift_angle ∧
    HasDerivAt (fun t => out_vehicle_lift_coefficient vehicle_angle_of_attack lift_curve_slope
      lift_ratio wing_zero_lift_angle t kclge flap_factor)
      (J_vehicle_lift_coefficient__dcl_flaps_model lift_ratio flap_factor) dcl_flaps_model ∧
    HasDerivAt (fun t => out_vehicle_lift_coefficient vehicle_angle_of_attack lift_curve_slope
      lift_ratio wing_zero_lift_angle dcl_flaps_model t flap_factor)
      (J_vehicle_lift_coefficient__kclge vehicle_angle_of_attack lift_curve_slope lift_ratio
      wing_zero_lift_angle) kclge ∧
    HasDerivAt (fun t => out_vehicle_lift_coefficient vehicle_angle_of_attack lift_curve_slope
      lift_ratio wing_zero_lift_angle dcl_flaps_model kclge t)
      (J_vehicle_lift_coefficient__flap_factor lift_ratio dcl_flaps_model) flap_factor :=
  ⟨d_cl_base__vehicle_angle_of_attack _ _ _ _ _, d_cl_base__lift_curve_slope _ _ _ _ _,
    d_cl_base__lift_ratio _ _ _ _ _, d_cl_base__wing_zero_lift_angle _ _ _ _ _, d_cl_base__kclge _
    _ _ _ _, d_dcl_flaps_full__lift_ratio _ _, d_dcl_flaps_full__dcl_flaps_model _ _,
    d_alpha_stall__lift_curve_slope _ _ _ _ _ h0 h1, d_alpha_stall__wing_zero_lift_angle _ _ _ _ _
    h0 h1, d_alpha_stall__cl_max_flaps _ _ _ _ _ h0 h1, d_alpha_stall__dcl_flaps_model _ _ _ _ _
    h0 h1, d_alpha_stall__kclge _ _ _ _ _ h0 h1, d_cl_max__lift_ratio _ _, d_cl_max__cl_max_flaps
    _ _, d_cl_full_flaps__vehicle_angle_of_attack _ _ _ _ _ _, d_cl_full_flaps__lift_curve_slope _
    _ _ _ _ _, d_cl_full_flaps__lift_ratio _ _ _ _ _ _, d_cl_full_flaps__wing_zero_lift_angle _ _
    _ _ _ _, d_cl_full_flaps__dcl_flaps_model _ _ _ _ _ _, d_cl_full_flaps__kclge _ _ _ _ _ _,
    d_vehicle_lift_coefficient__vehicle_angle_of_attack _ _ _ _ _ _ _,
    d_vehicle_lift_coefficient__lift_curve_slope _ _ _ _ _ _ _,
    d_vehicle_lift_coefficient__lift_ratio _ _ _ _ _ _ _,
    d_vehicle_lift_coefficient__wing_zero_lift_angle _ _ _ _ _ _ _,
    d_vehicle_lift_coefficient__dcl_flaps_model _ _ _ _ _ _ _, d_vehicle_lift_coefficient__kclge _
    _ _ _ _ _ _, d_vehicle_lift_coefficient__flap_factor _ _ _ _ _ _ _⟩

example : ∃ vehicle_angle_of_attack lift_curve_slope lift_ratio wing_zero_lift_angle cl_max_flaps
      dcl_flaps_model kclge flap_factor : ℝ,
      0 < kclge ∧
      0 < lift_curve_slope :=
  ⟨0, 1, 0, 0, 0, 0, 1, 0, by comp_example, by comp_example⟩

end Verif.Comp.AerodynamicsGaspBasedGaspaero.LiftCoeff

namespace Verif.Comp.AerodynamicsGaspBasedGaspaero.LiftCoeffClean_outputalpha
open Real

/-- aviary/subsystems/aerodynamics/gasp_based/gaspaero.py:2126 -/
noncomputable def clw (lift_ratio vehicle_lift_coefficient : ℝ) : ℝ :=
  vehicle_lift_coefficient / (1 + lift_ratio)

/-- Output `vehicle_angle_of_attack` of `LiftCoeffClean.compute`, aviary/subsystems/aerodynamics/gasp_based/gaspaero.py:2127 -/
noncomputable def out_vehicle_angle_of_attack (lift_curve_slope lift_ratio wing_zero_lift_angle vehicle_lift_coefficient : ℝ) : ℝ :=
  ((((clw lift_ratio vehicle_lift_coefficient) / lift_curve_slope) * 180) / π) +
    wing_zero_lift_angle

/-- Output `alpha_stall` of `LiftCoeffClean.compute`, aviary/subsystems/aerodynamics/gasp_based/gaspaero.py:2134 -/
noncomputable def out_alpha_stall (lift_curve_slope wing_zero_lift_angle design_lift_coefficient_max_flaps_up : ℝ) : ℝ :=
  (((design_lift_coefficient_max_flaps_up / lift_curve_slope) * 180) / π) + wing_zero_lift_angle

/-- Output `cl_max` of `LiftCoeffClean.compute`, aviary/subsystems/aerodynamics/gasp_based/gaspaero.py:2135 -/
noncomputable def out_cl_max (lift_ratio design_lift_coefficient_max_flaps_up : ℝ) : ℝ :=
  design_lift_coefficient_max_flaps_up * (1 + lift_ratio)

/-- Partial of `alpha_stall` with respect to `design_lift_coefficient_max_flaps_up` as set by `LiftCoeffClean`, aviary/subsystems/aerodynamics/gasp_based/gaspaero.py:2143 -/
noncomputable def J_alpha_stall__design_lift_coefficient_max_flaps_up (lift_curve_slope : ℝ) : ℝ :=
  (180 / π) / lift_curve_slope

/-- Partial of `alpha_stall` with respect to `lift_curve_slope` as set by `LiftCoeffClean`, aviary/subsystems/aerodynamics/gasp_based/gaspaero.py:2146 -/
noncomputable def J_alpha_stall__lift_curve_slope (lift_curve_slope design_lift_coefficient_max_flaps_up : ℝ) : ℝ :=
  (((-180) / π) * design_lift_coefficient_max_flaps_up) / (lift_curve_slope ^ 2)

/-- Partial of `alpha_stall` with respect to `wing_zero_lift_angle` as set by `LiftCoeffClean`, aviary/subsystems/aerodynamics/gasp_based/gaspaero.py:2147 -/
noncomputable def J_alpha_stall__wing_zero_lift_angle : ℝ := 1

/-- Partial of `cl_max` with respect to `design_lift_coefficient_max_flaps_up` as set by `LiftCoeffClean`, aviary/subsystems/aerodynamics/gasp_based/gaspaero.py:2148 -/
noncomputable def J_cl_max__design_lift_coefficient_max_flaps_up (lift_ratio : ℝ) : ℝ :=
  1 + lift_ratio

/-- Partial of `cl_max` with respect to `lift_ratio` as set by `LiftCoeffClean`, aviary/subsystems/aerodynamics/gasp_based/gaspaero.py:2149 -/
noncomputable def J_cl_max__lift_ratio (design_lift_coefficient_max_flaps_up : ℝ) : ℝ :=
  design_lift_coefficient_max_flaps_up

/-- Partial of `vehicle_angle_of_attack` with respect to `wing_zero_lift_angle` as set by `LiftCoeffClean`, aviary/subsystems/aerodynamics/gasp_based/gaspaero.py:2155 -/
noncomputable def J_vehicle_angle_of_attack__wing_zero_lift_angle : ℝ := 1

/-- Partial of `vehicle_angle_of_attack` with respect to `lift_curve_slope` as set by `LiftCoeffClean`, aviary/subsystems/aerodynamics/gasp_based/gaspaero.py:2156 -/
noncomputable def J_vehicle_angle_of_attack__lift_curve_slope (lift_curve_slope lift_ratio vehicle_lift_coefficient : ℝ) : ℝ :=
  (((-180) / π) * (clw lift_ratio vehicle_lift_coefficient)) / (lift_curve_slope ^ 2)

/-- Partial of `vehicle_angle_of_attack` with respect to `vehicle_lift_coefficient` as set by `LiftCoeffClean`, aviary/subsystems/aerodynamics/gasp_based/gaspaero.py:2159 -/
noncomputable def J_vehicle_angle_of_attack__vehicle_lift_coefficient (lift_curve_slope lift_ratio : ℝ) : ℝ :=
  ((180 / π) / (1 + lift_ratio)) / lift_curve_slope

/-- Partial of `vehicle_angle_of_attack` with respect to `lift_ratio` as set by `LiftCoeffClean`, aviary/subsystems/aerodynamics/gasp_based/gaspaero.py:2162 -/
noncomputable def J_vehicle_angle_of_attack__lift_ratio (lift_curve_slope lift_ratio vehicle_lift_coefficient : ℝ) : ℝ :=
  ((((-180) / π) * vehicle_lift_coefficient) / ((1 + lift_ratio) ^ 2)) / lift_curve_slope

theorem d_vehicle_angle_of_attack__lift_curve_slope (lift_curve_slope lift_ratio
    wing_zero_lift_angle vehicle_lift_coefficient : ℝ) (h0 : 0 < lift_ratio) (h1 : 0 <
    lift_curve_slope) :
    HasDerivAt (fun t => out_vehicle_angle_of_attack t lift_ratio wing_zero_lift_angle vehicle_lift_coefficient) (J_vehicle_angle_of_attack__lift_curve_slope lift_curve_slope lift_ratio vehicle_lift_coefficient) lift_curve_slope := by
  simp only [out_vehicle_angle_of_attack, J_vehicle_angle_of_attack__lift_curve_slope, clw]
  (apply hasDerivAt_of_eq; on_goal 1 => (repeat' comp_step))
  all_goals try comp_side
  all_goals try simp only [mul_zero, zero_mul, add_zero, zero_add, sub_zero, zero_sub, mul_one, one_mul]
  all_goals try push_cast
  all_goals comp_eq

theorem d_vehicle_angle_of_attack__lift_ratio (lift_curve_slope lift_ratio wing_zero_lift_angle
    vehicle_lift_coefficient : ℝ) (h0 : 0 < lift_ratio) (h1 : 0 < lift_curve_slope) :
    HasDerivAt (fun t => out_vehicle_angle_of_attack lift_curve_slope t wing_zero_lift_angle vehicle_lift_coefficient) (J_vehicle_angle_of_attack__lift_ratio lift_curve_slope lift_ratio vehicle_lift_coefficient) lift_ratio := by
  simp only [out_vehicle_angle_of_attack, J_vehicle_angle_of_attack__lift_ratio, clw]
  (apply hasDerivAt_of_eq; on_goal 1 => (repeat' comp_step))
  all_goals try comp_side
  all_goals try simp only [mul_zero, zero_mul, add_zero, zero_add, sub_zero, zero_sub, mul_one, one_mul]
  all_goals try push_cast
  all_goals comp_eq

theorem d_vehicle_angle_of_attack__wing_zero_lift_angle (lift_curve_slope lift_ratio
    wing_zero_lift_angle vehicle_lift_coefficient : ℝ) (h0 : 0 < lift_ratio) (h1 : 0 <
    lift_curve_slope) :
    HasDerivAt (fun t => out_vehicle_angle_of_attack lift_curve_slope lift_ratio t vehicle_lift_coefficient) (J_vehicle_angle_of_attack__wing_zero_lift_angle) wing_zero_lift_angle := by
  simp only [out_vehicle_angle_of_attack, J_vehicle_angle_of_attack__wing_zero_lift_angle, clw]
  (apply hasDerivAt_of_eq; on_goal 1 => (repeat' comp_step))
  all_goals try comp_side
  all_goals try simp only [mul_zero, zero_mul, add_zero, zero_add, sub_zero, zero_sub, mul_one, one_mul]
  all_goals try push_cast
  all_goals comp_eq

theorem d_vehicle_angle_of_attack__vehicle_lift_coefficient (lift_curve_slope lift_ratio
    wing_zero_lift_angle vehicle_lift_coefficient : ℝ) (h0 : 0 < lift_ratio) (h1 : 0 <
    lift_curve_slope) :
    HasDerivAt (fun t => out_vehicle_angle_of_attack lift_curve_slope lift_ratio wing_zero_lift_angle t) (J_vehicle_angle_of_attack__vehicle_lift_coefficient lift_curve_slope lift_ratio) vehicle_lift_coefficient := by
  simp only [out_vehicle_angle_of_attack, J_vehicle_angle_of_attack__vehicle_lift_coefficient, clw]
  (apply hasDerivAt_of_eq; on_goal 1 => (repeat' comp_step))
  all_goals try comp_side
  all_goals try simp only [mul_zero, zero_mul, add_zero, zero_add, sub_zero, zero_sub, mul_one, one_mul]
  all_goals try push_cast
  all_goals comp_eq

theorem d_alpha_stall__lift_curve_slope (lift_curve_slope wing_zero_lift_angle
    design_lift_coefficient_max_flaps_up : ℝ) (h0 : 0 < lift_curve_slope) :
    HasDerivAt (fun t => out_alpha_stall t wing_zero_lift_angle design_lift_coefficient_max_flaps_up) (J_alpha_stall__lift_curve_slope lift_curve_slope design_lift_coefficient_max_flaps_up) lift_curve_slope := by
  simp only [out_alpha_stall, J_alpha_stall__lift_curve_slope]
  (apply hasDerivAt_of_eq; on_goal 1 => (repeat' comp_step))
  all_goals try comp_side
  all_goals try simp only [mul_zero, zero_mul, add_zero, zero_add, sub_zero, zero_sub, mul_one, one_mul]
  all_goals try push_cast
  all_goals comp_eq

theorem d_alpha_stall__wing_zero_lift_angle (lift_curve_slope wing_zero_lift_angle
    design_lift_coefficient_max_flaps_up : ℝ) (h0 : 0 < lift_curve_slope) :
    HasDerivAt (fun t => out_alpha_stall lift_curve_slope t design_lift_coefficient_max_flaps_up) (J_alpha_stall__wing_zero_lift_angle) wing_zero_lift_angle := by
  simp only [out_alpha_stall, J_alpha_stall__wing_zero_lift_angle]
  (apply hasDerivAt_of_eq; on_goal 1 => (repeat' comp_step))
  all_goals try comp_side
  all_goals try simp only [mul_zero, zero_mul, add_zero, zero_add, sub_zero, zero_sub, mul_one, one_mul]
  all_goals try push_cast
  all_goals comp_eq

theorem d_alpha_stall__design_lift_coefficient_max_flaps_up (lift_curve_slope wing_zero_lift_angle
    design_lift_coefficient_max_flaps_up : ℝ) (h0 : 0 < lift_curve_slope) :
    HasDerivAt (fun t => out_alpha_stall lift_curve_slope wing_zero_lift_angle t) (J_alpha_stall__design_lift_coefficient_max_flaps_up lift_curve_slope) design_lift_coefficient_max_flaps_up := by
  simp only [out_alpha_stall, J_alpha_stall__design_lift_coefficient_max_flaps_up]
  (apply hasDerivAt_of_eq; on_goal 1 => (repeat' comp_step))
  all_goals try comp_side
  all_goals try simp only [mul_zero, zero_mul, add_zero, zero_add, sub_zero, zero_sub, mul_one, one_mul]
  all_goals try push_cast
  all_goals comp_eq

theorem d_cl_max__lift_ratio (lift_ratio design_lift_coefficient_max_flaps_up : ℝ)  :
    HasDerivAt (fun t => out_cl_max t design_lift_coefficient_max_flaps_up) (J_cl_max__lift_ratio design_lift_coefficient_max_flaps_up) lift_ratio := by
  simp only [out_cl_max, J_cl_max__lift_ratio]
  (apply hasDerivAt_of_eq; on_goal 1 => (repeat' comp_step))
  all_goals try comp_side
  all_goals try simp only [mul_zero, zero_mul, add_zero, zero_add, sub_zero, zero_sub, mul_one, one_mul]
  all_goals try push_cast
  all_goals comp_eq

theorem d_cl_max__design_lift_coefficient_max_flaps_up (lift_ratio
    design_lift_coefficient_max_flaps_up : ℝ)  :
    HasDerivAt (fun t => out_cl_max lift_ratio t) (J_cl_max__design_lift_coefficient_max_flaps_up lift_ratio) design_lift_coefficient_max_flaps_up := by
  simp only [out_cl_max, J_cl_max__design_lift_coefficient_max_flaps_up]
  (apply hasDerivAt_of_eq; on_goal 1 => (repeat' comp_step))
  all_goals try comp_side
  all_goals try simp only [mul_zero, zero_mul, add_zero, zero_add, sub_zero, zero_sub, mul_one, one_mul]
  all_goals try push_cast
  all_goals comp_eq

/-- Every partial derivative set by `LiftCoeffClean` is the derivative of its output. -/
theorem partials (lift_curve_slope lift_ratio wing_zero_lift_angle
    design_lift_coefficient_max_flaps_up vehicle_lift_coefficient : ℝ) (h0 : 0 < lift_ratio) (h1 :
    0 < lift_curve_slope) :
    HasDerivAt (fun t => out_vehicle_angle_of_attack t lift_ratio wing_zero_lift_angle
      vehicle_lift_coefficient) (J_vehicle_angle_of_attack__lift_curve_slope lift_curve_slope
      lift_ratio vehicle_lift_coefficient) lift_curve_slope ∧
    HasDerivAt (fun t => out_vehicle_angle_of_attack lift_curve_slope t wing_zero_lift_angle
      vehicle_lift_coefficient) (J_vehicle_angle_of_attack__lift_ratio lift_curve_slope lift_ratio
      vehicle_lift_coefficient) lift_ratio ∧
    HasDerivAt (fun t => out_vehicle_angle_of_attack lift_curve_slope lift_ratio t
      vehicle_lift_coefficient) (J_vehicle_angle_of_attack__wing_zero_lift_angle)
      wing_zero_lift_angle ∧
    HasDerivAt (fun t => out_vehicle_angle_of_attack lift_curve_slope lift_ratio wing_zero_lift_angle
      t) (J_vehicle_angle_of_attack__vehicle_lift_coefficient lift_curve_slope lift_ratio)
      vehicle_lift_coefficient ∧
    HasDerivAt (fun t => out_alpha_stall t wing_zero_lift_angle design_lift_coefficient_max_flaps_up)
      (J_alpha_stall__lift_curve_slope lift_curve_slope design_lift_coefficient_max_flaps_up)
      lift_curve_slope ∧
    HasDerivAt (fun t => out_alpha_stall lift_curve_slope t design_lift_coefficient_max_flaps_up)
      (J_alpha_stall__wing_zero_lift_angle) wing_zero_lift_angle ∧
    HasDerivAt (fun t => out_alpha_stall lift_curve_slope wing_zero_lift_angle t)
      (J_alpha_stall__design_lift_coefficient_max_flaps_up lift_curve_slope)
      design_lift_coefficient_max_flaps_up ∧
    HasDerivAt (fun t => out_cl_max t design_lift_coefficient_max_flaps_up) (J_cl_max__lift_ratio
      design_lift_coefficient_max_flaps_up) lift_ratio ∧
    HasDerivAt (fun t => out_cl_max lift_ratio t) (J_cl_max__design_lift_coefficient_max_flaps_up
      lift_ratio) design_lift_coefficient_max_flaps_up :=
  ⟨d_vehicle_angle_of_attack__lift_curve_slope _ _ _ _ h0 h1,
    d_vehicle_angle_of_attack__lift_ratio _ _ _ _ h0 h1,
    d_vehicle_angle_of_attack__wing_zero_lift_angle _ _ _ _ h0 h1,
    d_vehicle_angle_of_attack__vehicle_lift_coefficient _ _ _ _ h0 h1,
    d_alpha_stall__lift_curve_slope _ _ _ h1, d_alpha_stall__wing_zero_lift_angle _ _ _ h1,
    d_alpha_stall__design_lift_coefficient_max_flaps_up _ _ _ h1, d_cl_max__lift_ratio _ _,
    d_cl_max__design_lift_coefficient_max_flaps_up _ _⟩

example : ∃ lift_curve_slope lift_ratio wing_zero_lift_angle design_lift_coefficient_max_flaps_up
      vehicle_lift_coefficient : ℝ,
      0 < lift_ratio ∧
      0 < lift_curve_slope :=
  ⟨1, 1, 0, 0, 0, by comp_example, by comp_example⟩

end Verif.Comp.AerodynamicsGaspBasedGaspaero.LiftCoeffClean_outputalpha

namespace Verif.Comp.AerodynamicsGaspBasedGaspaero.LiftCoeffClean_no_outputalpha
open Real

/-- Output `vehicle_lift_coefficient` of `LiftCoeffClean.compute`, aviary/subsystems/aerodynamics/gasp_based/gaspaero.py:2130 -/
noncomputable def out_vehicle_lift_coefficient (lift_curve_slope lift_ratio wing_zero_lift_angle vehicle_angle_of_attack : ℝ) : ℝ :=
  (lift_curve_slope * (((vehicle_angle_of_attack - wing_zero_lift_angle) * π) / 180)) * (1 +
    lift_ratio)

/-- Output `alpha_stall` of `LiftCoeffClean.compute`, aviary/subsystems/aerodynamics/gasp_based/gaspaero.py:2134 -/
noncomputable def out_alpha_stall (lift_curve_slope wing_zero_lift_angle design_lift_coefficient_max_flaps_up : ℝ) : ℝ :=
  (((design_lift_coefficient_max_flaps_up / lift_curve_slope) * 180) / π) + wing_zero_lift_angle

/-- Output `cl_max` of `LiftCoeffClean.compute`, aviary/subsystems/aerodynamics/gasp_based/gaspaero.py:2135 -/
noncomputable def out_cl_max (lift_ratio design_lift_coefficient_max_flaps_up : ℝ) : ℝ :=
  design_lift_coefficient_max_flaps_up * (1 + lift_ratio)

/-- Partial of `alpha_stall` with respect to `design_lift_coefficient_max_flaps_up` as set by `LiftCoeffClean`, aviary/subsystems/aerodynamics/gasp_based/gaspaero.py:2143 -/
noncomputable def J_alpha_stall__design_lift_coefficient_max_flaps_up (lift_curve_slope : ℝ) : ℝ :=
  (180 / π) / lift_curve_slope

/-- Partial of `alpha_stall` with respect to `lift_curve_slope` as set by `LiftCoeffClean`, aviary/subsystems/aerodynamics/gasp_based/gaspaero.py:2146 -/
noncomputable def J_alpha_stall__lift_curve_slope (lift_curve_slope design_lift_coefficient_max_flaps_up : ℝ) : ℝ :=
  (((-180) / π) * design_lift_coefficient_max_flaps_up) / (lift_curve_slope ^ 2)

/-- Partial of `alpha_stall` with respect to `wing_zero_lift_angle` as set by `LiftCoeffClean`, aviary/subsystems/aerodynamics/gasp_based/gaspaero.py:2147 -/
noncomputable def J_alpha_stall__wing_zero_lift_angle : ℝ := 1

/-- Partial of `cl_max` with respect to `design_lift_coefficient_max_flaps_up` as set by `LiftCoeffClean`, aviary/subsystems/aerodynamics/gasp_based/gaspaero.py:2148 -/
noncomputable def J_cl_max__design_lift_coefficient_max_flaps_up (lift_ratio : ℝ) : ℝ :=
  1 + lift_ratio

/-- Partial of `cl_max` with respect to `lift_ratio` as set by `LiftCoeffClean`, aviary/subsystems/aerodynamics/gasp_based/gaspaero.py:2149 -/
noncomputable def J_cl_max__lift_ratio (design_lift_coefficient_max_flaps_up : ℝ) : ℝ :=
  design_lift_coefficient_max_flaps_up

/-- Partial of `vehicle_lift_coefficient` with respect to `vehicle_angle_of_attack` as set by `LiftCoeffClean`, aviary/subsystems/aerodynamics/gasp_based/gaspaero.py:2167 -/
noncomputable def J_vehicle_lift_coefficient__vehicle_angle_of_attack (lift_curve_slope lift_ratio : ℝ) : ℝ :=
  ((lift_curve_slope * π) / 180) * (1 + lift_ratio)

/-- Partial of `vehicle_lift_coefficient` with respect to `lift_curve_slope` as set by `LiftCoeffClean`, aviary/subsystems/aerodynamics/gasp_based/gaspaero.py:2170 -/
noncomputable def J_vehicle_lift_coefficient__lift_curve_slope (lift_ratio wing_zero_lift_angle vehicle_angle_of_attack : ℝ) : ℝ :=
  (((vehicle_angle_of_attack - wing_zero_lift_angle) * π) / 180) * (1 + lift_ratio)

/-- Partial of `vehicle_lift_coefficient` with respect to `lift_ratio` as set by `LiftCoeffClean`, aviary/subsystems/aerodynamics/gasp_based/gaspaero.py:2173 -/
noncomputable def J_vehicle_lift_coefficient__lift_ratio (lift_curve_slope wing_zero_lift_angle vehicle_angle_of_attack : ℝ) : ℝ :=
  lift_curve_slope * (((vehicle_angle_of_attack - wing_zero_lift_angle) * π) / 180)

/-- Partial of `vehicle_lift_coefficient` with respect to `wing_zero_lift_angle` as set by `LiftCoeffClean`, aviary/subsystems/aerodynamics/gasp_based/gaspaero.py:2176 -/
noncomputable def J_vehicle_lift_coefficient__wing_zero_lift_angle (lift_curve_slope lift_ratio : ℝ) : ℝ :=
  (((-lift_curve_slope) * π) / 180) * (1 + lift_ratio)

theorem d_vehicle_lift_coefficient__lift_curve_slope (lift_curve_slope lift_ratio
    wing_zero_lift_angle vehicle_angle_of_attack : ℝ)  :
    HasDerivAt (fun t => out_vehicle_lift_coefficient t lift_ratio wing_zero_lift_angle vehicle_angle_of_attack) (J_vehicle_lift_coefficient__lift_curve_slope lift_ratio wing_zero_lift_angle vehicle_angle_of_attack) lift_curve_slope := by
  simp only [out_vehicle_lift_coefficient, J_vehicle_lift_coefficient__lift_curve_slope]
  (apply hasDerivAt_of_eq; on_goal 1 => (repeat' comp_step))
  all_goals try comp_side
  all_goals try simp only [mul_zero, zero_mul, add_zero, zero_add, sub_zero, zero_sub, mul_one, one_mul]
  all_goals try push_cast
  all_goals comp_eq

theorem d_vehicle_lift_coefficient__lift_ratio (lift_curve_slope lift_ratio wing_zero_lift_angle
    vehicle_angle_of_attack : ℝ)  :
    HasDerivAt (fun t => out_vehicle_lift_coefficient lift_curve_slope t wing_zero_lift_angle vehicle_angle_of_attack) (J_vehicle_lift_coefficient__lift_ratio lift_curve_slope wing_zero_lift_angle vehicle_angle_of_attack) lift_ratio := by
  simp only [out_vehicle_lift_coefficient, J_vehicle_lift_coefficient__lift_ratio]
  (apply hasDerivAt_of_eq; on_goal 1 => (repeat' comp_step))
  all_goals try comp_side
  all_goals try simp only [mul_zero, zero_mul, add_zero, zero_add, sub_zero, zero_sub, mul_one, one_mul]
  all_goals try push_cast
  all_goals comp_eq

theorem d_vehicle_lift_coefficient__wing_zero_lift_angle (lift_curve_slope lift_ratio
    wing_zero_lift_angle vehicle_angle_of_attack : ℝ)  :
    HasDerivAt (fun t => out_vehicle_lift_coefficient lift_curve_slope lift_ratio t vehicle_angle_of_attack) (J_vehicle_lift_coefficient__wing_zero_lift_angle lift_curve_slope lift_ratio) wing_zero_lift_angle := by
  simp only [out_vehicle_lift_coefficient, J_vehicle_lift_coefficient__wing_zero_lift_angle]
  (apply hasDerivAt_of_eq; on_goal 1 => (repeat' comp_step))
  all_goals try comp_side
  all_goals try simp only [mul_zero, zero_mul, add_zero, zero_add, sub_zero, zero_sub, mul_one, one_mul]
  all_goals try push_cast
  all_goals comp_eq

theorem d_vehicle_lift_coefficient__vehicle_angle_of_attack (lift_curve_slope lift_ratio
    wing_zero_lift_angle vehicle_angle_of_attack : ℝ)  :
    HasDerivAt (fun t => out_vehicle_lift_coefficient lift_curve_slope lift_ratio wing_zero_lift_angle t) (J_vehicle_lift_coefficient__vehicle_angle_of_attack lift_curve_slope lift_ratio) vehicle_angle_of_attack := by
  simp only [out_vehicle_lift_coefficient, J_vehicle_lift_coefficient__vehicle_angle_of_attack]
  (apply hasDerivAt_of_eq; on_goal 1 => (repeat' comp_step))
  all_goals try comp_side
  all_goals try simp only [mul_zero, zero_mul, add_zero, zero_add, sub_zero, zero_sub, mul_one, one_mul]
  all_goals try push_cast
  all_goals comp_eq

theorem d_alpha_stall__lift_curve_slope (lift_curve_slope wing_zero_lift_angle
    design_lift_coefficient_max_flaps_up : ℝ) (h0 : 0 < lift_curve_slope) :
    HasDerivAt (fun t => out_alpha_stall t wing_zero_lift_angle design_lift_coefficient_max_flaps_up) (J_alpha_stall__lift_curve_slope lift_curve_slope design_lift_coefficient_max_flaps_up) lift_curve_slope := by
  simp only [out_alpha_stall, J_alpha_stall__lift_curve_slope]
  (apply hasDerivAt_of_eq; on_goal 1 => (repeat' comp_step))
  all_goals try comp_side
  all_goals try simp only [mul_zero, zero_mul, add_zero, zero_add, sub_zero, zero_sub, mul_one, one_mul]
  all_goals try push_cast
  all_goals comp_eq

theorem d_alpha_stall__wing_zero_lift_angle (lift_curve_slope wing_zero_lift_angle
    design_lift_coefficient_max_flaps_up : ℝ) (h0 : 0 < lift_curve_slope) :
    HasDerivAt (fun t => out_alpha_stall lift_curve_slope t design_lift_coefficient_max_flaps_up) (J_alpha_stall__wing_zero_lift_angle) wing_zero_lift_angle := by
  simp only [out_alpha_stall, J_alpha_stall__wing_zero_lift_angle]
  (apply hasDerivAt_of_eq; on_goal 1 => (repeat' comp_step))
  all_goals try comp_side
  all_goals try simp only [mul_zero, zero_mul, add_zero, zero_add, sub_zero, zero_sub, mul_one, one_mul]
  all_goals try push_cast
  all_goals comp_eq

theorem d_alpha_stall__design_lift_coefficient_max_flaps_up (lift_curve_slope wing_zero_lift_angle
    design_lift_coefficient_max_flaps_up : ℝ) (h0 : 0 < lift_curve_slope) :
    HasDerivAt (fun t => out_alpha_stall lift_curve_slope wing_zero_lift_angle t) (J_alpha_stall__design_lift_coefficient_max_flaps_up lift_curve_slope) design_lift_coefficient_max_flaps_up := by
  simp only [out_alpha_stall, J_alpha_stall__design_lift_coefficient_max_flaps_up]
  (apply hasDerivAt_of_eq; on_goal 1 => (repeat' comp_step))
  all_goals try comp_side
  all_goals try simp only [mul_zero, zero_mul, add_zero, zero_add, sub_zero, zero_sub, mul_one, one_mul]
  all_goals try push_cast
  all_goals comp_eq

theorem d_cl_max__lift_ratio (lift_ratio design_lift_coefficient_max_flaps_up : ℝ)  :
    HasDerivAt (fun t => out_cl_max t design_lift_coefficient_max_flaps_up) (J_cl_max__lift_ratio design_lift_coefficient_max_flaps_up) lift_ratio := by
  simp only [out_cl_max, J_cl_max__lift_ratio]
  (apply hasDerivAt_of_eq; on_goal 1 => (repeat' comp_step))
  all_goals try comp_side
  all_goals try simp only [mul_zero, zero_mul, add_zero, zero_add, sub_zero, zero_sub, mul_one, one_mul]
  all_goals try push_cast
  all_goals comp_eq

theorem d_cl_max__design_lift_coefficient_max_flaps_up (lift_ratio
    design_lift_coefficient_max_flaps_up : ℝ)  :
    HasDerivAt (fun t => out_cl_max lift_ratio t) (J_cl_max__design_lift_coefficient_max_flaps_up lift_ratio) design_lift_coefficient_max_flaps_up := by
  simp only [out_cl_max, J_cl_max__design_lift_coefficient_max_flaps_up]
  (apply hasDerivAt_of_eq; on_goal 1 => (repeat' comp_step))
  all_goals try comp_side
  all_goals try simp only [mul_zero, zero_mul, add_zero, zero_add, sub_zero, zero_sub, mul_one, one_mul]
  all_goals try push_cast
  all_goals comp_eq

/-- Every partial derivative set by `LiftCoeffClean` is the derivative of its output. -/
theorem partials (lift_curve_slope lift_ratio wing_zero_lift_angle
    design_lift_coefficient_max_flaps_up vehicle_angle_of_attack : ℝ) (h0 : 0 < lift_curve_slope)
    :
    HasDerivAt (fun t => out_vehicle_lift_coefficient t lift_ratio wing_zero_lift_angle
      vehicle_angle_of_attack) (J_vehicle_lift_coefficient__lift_curve_slope lift_ratio
      wing_zero_lift_angle vehicle_angle_of_attack) lift_curve_slope ∧
    HasDerivAt (fun t => out_vehicle_lift_coefficient lift_curve_slope t wing_zero_lift_angle
      vehicle_angle_of_attack) (J_vehicle_lift_coefficient__lift_ratio lift_curve_slope
      wing_zero_lift_angle vehicle_angle_of_attack) lift_ratio ∧
    HasDerivAt (fun t => out_vehicle_lift_coefficient lift_curve_slope lift_ratio t
      vehicle_angle_of_attack) (J_vehicle_lift_coefficient__wing_zero_lift_angle lift_curve_slope
      lift_ratio) wing_zero_lift_angle ∧
    HasDerivAt (fun t => out_vehicle_lift_coefficient lift_curve_slope lift_ratio wing_zero_lift_angle
      t) (J_vehicle_lift_coefficient__vehicle_angle_of_attack lift_curve_slope lift_ratio)
      vehicle_angle_of_attack ∧
    HasDerivAt (fun t => out_alpha_stall t wing_zero_lift_angle design_lift_coefficient_max_flaps_up)
      (J_alpha_stall__lift_curve_slope lift_curve_slope design_lift_coefficient_max_flaps_up)
      lift_curve_slope ∧
    HasDerivAt (fun t => out_alpha_stall lift_curve_slope t design_lift_coefficient_max_flaps_up)
      (J_alpha_stall__wing_zero_lift_angle) wing_zero_lift_angle ∧
    HasDerivAt (fun t => out_alpha_stall lift_curve_slope wing_zero_lift_angle t)
      (J_alpha_stall__design_lift_coefficient_max_flaps_up lift_curve_slope)
      design_lift_coefficient_max_flaps_up ∧
    HasDerivAt (fun t => out_cl_max t design_lift_coefficient_max_flaps_up) (J_cl_max__lift_ratio
      design_lift_coefficient_max_flaps_up) lift_ratio ∧
    HasDerivAt (fun t => out_cl_max lift_ratio t) (J_cl_max__design_lift_coefficient_max_flaps_up
      lift_ratio) design_lift_coefficient_max_flaps_up :=
  ⟨d_vehicle_lift_coefficient__lift_curve_slope _ _ _ _, d_vehicle_lift_coefficient__lift_ratio _
    _ _ _, d_vehicle_lift_coefficient__wing_zero_lift_angle _ _ _ _,
    d_vehicle_lift_coefficient__vehicle_angle_of_attack _ _ _ _, d_alpha_stall__lift_curve_slope _
    _ _ h0, d_alpha_stall__wing_zero_lift_angle _ _ _ h0,
    d_alpha_stall__design_lift_coefficient_max_flaps_up _ _ _ h0, d_cl_max__lift_ratio _ _,
    d_cl_max__design_lift_coefficient_max_flaps_up _ _⟩

example : ∃ lift_curve_slope lift_ratio wing_zero_lift_angle design_lift_coefficient_max_flaps_up
      vehicle_angle_of_attack : ℝ,
      0 < lift_curve_slope :=
  ⟨1, 0, 0, 0, 0, by comp_example⟩

end Verif.Comp.AerodynamicsGaspBasedGaspaero.LiftCoeffClean_no_outputalpha

