import Verif.Lemmas.CompDeriv

/-! # Partial derivatives of the components of `aviary/subsystems/geometry/gasp_based/wing.py`

One node of a vector component is modelled over the real numbers.  Each option that selects a
branch is fixed, one namespace per choice.  `out_x` is the output `x`, `J_x__y` the entry that
`compute_partials` (or `declare_partials` with `val`) assigns, `d_x__y` the proof that the entry is
the derivative.  Inputs an output does not take as argument have no influence on it.

* `BWBWingVolume_winghasfold_no_smooth`: not proved: `wing_volume_no_fold` by
  `fuselage_avg_diameter`, `wing_volume_no_fold` by `wing_center_chord`, `wing_volume_no_fold` by
  `wing_span`, `wing_volume_no_fold` by `wing_taper_ratio`

* `BWBWingVolume_no_winghasfold_no_smooth`: not proved: `fuel_wing_volume_geometric_max` by
  `fuselage_avg_diameter`, `fuel_wing_volume_geometric_max` by `wing_center_chord`,
  `fuel_wing_volume_geometric_max` by `wing_span`, `fuel_wing_volume_geometric_max` by
  `wing_taper_ratio`

* `ExposedWing_blendedwingbody`: line 1823: raise branch excluded
* `ExposedWing_blendedwingbody`: line 1864: raise branch excluded

* `ExposedWing_transport`: line 1823: raise branch excluded
* `ExposedWing_transport`: line 1864: raise branch excluded

* `WingFoldArea_wingchoosefoldlocation`: line 919: raise branch excluded

* `WingFoldArea_no_wingchoosefoldlocation`: line 919: raise branch excluded -/

set_option linter.all false

namespace Verif.Comp.GeometryGaspBasedWing.BWBWingFoldVolume_wingchoosefoldlocation
open Real

/-- aviary/subsystems/geometry/gasp_based/wing.py:1420 -/
noncomputable def location (wing_folded_span : ℝ) : ℝ := wing_folded_span / 2

/-- aviary/subsystems/geometry/gasp_based/wing.py:1422 -/
noncomputable def tc_ratio_fold (wing_span wing_thickness_to_chord_root wing_thickness_to_chord_tip wing_folded_span : ℝ) : ℝ :=
  wing_thickness_to_chord_root + (((2 * (location wing_folded_span)) *
    (wing_thickness_to_chord_tip - wing_thickness_to_chord_root)) / wing_span)

/-- aviary/subsystems/geometry/gasp_based/wing.py:1423 -/
noncomputable def tc_fac (wing_span wing_thickness_to_chord_root wing_thickness_to_chord_tip wing_folded_span : ℝ) : ℝ :=
  (1 + ((tc_ratio_fold wing_span wing_thickness_to_chord_root wing_thickness_to_chord_tip
    wing_folded_span) / wing_thickness_to_chord_root)) / (1 + (wing_thickness_to_chord_tip /
    wing_thickness_to_chord_root))

/-- aviary/subsystems/geometry/gasp_based/wing.py:1424 -/
noncomputable def geometric_fuel_vol (wing_span wing_thickness_to_chord_root wing_thickness_to_chord_tip fuselage_avg_diameter wing_volume_no_fold wing_folded_span : ℝ) : ℝ :=
  (((tc_fac wing_span wing_thickness_to_chord_root wing_thickness_to_chord_tip wing_folded_span)
    * (wing_folded_span - fuselage_avg_diameter)) / (wing_span - fuselage_avg_diameter)) *
    wing_volume_no_fold

/-- aviary/subsystems/geometry/gasp_based/wing.py:1452 -/
noncomputable def dtc_ratio_fold_wrt (wing_span wing_thickness_to_chord_root wing_thickness_to_chord_tip : ℝ) : ℝ :=
  (wing_thickness_to_chord_tip - wing_thickness_to_chord_root) / wing_span

/-- aviary/subsystems/geometry/gasp_based/wing.py:1453 -/
noncomputable def dtc_ratio_fold_dwingspan (wing_span wing_thickness_to_chord_root wing_thickness_to_chord_tip wing_folded_span : ℝ) : ℝ :=
  (((-2) * (location wing_folded_span)) * (wing_thickness_to_chord_tip -
    wing_thickness_to_chord_root)) / (wing_span ^ 2)

/-- aviary/subsystems/geometry/gasp_based/wing.py:1454 -/
noncomputable def dtc_ratio_fold_dtc_ratio_root (wing_span wing_folded_span : ℝ) : ℝ :=
  1 - ((2 * (location wing_folded_span)) / wing_span)

/-- aviary/subsystems/geometry/gasp_based/wing.py:1455 -/
noncomputable def dtc_ratio_fold_dtc_ratio_tip (wing_span wing_folded_span : ℝ) : ℝ :=
  (2 * (location wing_folded_span)) / wing_span

/-- aviary/subsystems/geometry/gasp_based/wing.py:1457 -/
noncomputable def u (wing_span wing_thickness_to_chord_root wing_thickness_to_chord_tip wing_folded_span : ℝ) : ℝ :=
  1 + ((tc_ratio_fold wing_span wing_thickness_to_chord_root wing_thickness_to_chord_tip
    wing_folded_span) / wing_thickness_to_chord_root)

/-- aviary/subsystems/geometry/gasp_based/wing.py:1458 -/
noncomputable def v (wing_thickness_to_chord_root wing_thickness_to_chord_tip : ℝ) : ℝ :=
  1 + (wing_thickness_to_chord_tip / wing_thickness_to_chord_root)

/-- aviary/subsystems/geometry/gasp_based/wing.py:1460 -/
noncomputable def dtc_fac_wrt (wing_span wing_thickness_to_chord_root wing_thickness_to_chord_tip : ℝ) : ℝ :=
  ((dtc_ratio_fold_wrt wing_span wing_thickness_to_chord_root wing_thickness_to_chord_tip) /
    wing_thickness_to_chord_root) / (1 + (wing_thickness_to_chord_tip /
    wing_thickness_to_chord_root))

/-- aviary/subsystems/geometry/gasp_based/wing.py:1461 -/
noncomputable def dtc_fac_dwingspan (wing_span wing_thickness_to_chord_root wing_thickness_to_chord_tip wing_folded_span : ℝ) : ℝ :=
  ((dtc_ratio_fold_dwingspan wing_span wing_thickness_to_chord_root wing_thickness_to_chord_tip
    wing_folded_span) / wing_thickness_to_chord_root) / (1 + (wing_thickness_to_chord_tip /
    wing_thickness_to_chord_root))

/-- aviary/subsystems/geometry/gasp_based/wing.py:1465 -/
noncomputable def du_tip (wing_span wing_thickness_to_chord_root wing_folded_span : ℝ) : ℝ :=
  (dtc_ratio_fold_dtc_ratio_tip wing_span wing_folded_span) / wing_thickness_to_chord_root

/-- aviary/subsystems/geometry/gasp_based/wing.py:1466 -/
noncomputable def dv_tip (wing_thickness_to_chord_root : ℝ) : ℝ := 1 / wing_thickness_to_chord_root

/-- aviary/subsystems/geometry/gasp_based/wing.py:1467 -/
noncomputable def dtc_fac_dtc_ratio_tip (wing_span wing_thickness_to_chord_root wing_thickness_to_chord_tip wing_folded_span : ℝ) : ℝ :=
  (((du_tip wing_span wing_thickness_to_chord_root wing_folded_span) * (v
    wing_thickness_to_chord_root wing_thickness_to_chord_tip)) - ((u wing_span
    wing_thickness_to_chord_root wing_thickness_to_chord_tip wing_folded_span) * (dv_tip
    wing_thickness_to_chord_root))) / ((v wing_thickness_to_chord_root
    wing_thickness_to_chord_tip) ^ 2)

/-- aviary/subsystems/geometry/gasp_based/wing.py:1468 -/
noncomputable def du_root (wing_span wing_thickness_to_chord_root wing_thickness_to_chord_tip wing_folded_span : ℝ) : ℝ :=
  (((dtc_ratio_fold_dtc_ratio_root wing_span wing_folded_span) * wing_thickness_to_chord_root) -
    (tc_ratio_fold wing_span wing_thickness_to_chord_root wing_thickness_to_chord_tip
    wing_folded_span)) / (wing_thickness_to_chord_root ^ 2)

/-- aviary/subsystems/geometry/gasp_based/wing.py:1469 -/
noncomputable def dv_root (wing_thickness_to_chord_root wing_thickness_to_chord_tip : ℝ) : ℝ :=
  (-wing_thickness_to_chord_tip) / (wing_thickness_to_chord_root ^ 2)

/-- aviary/subsystems/geometry/gasp_based/wing.py:1470 -/
noncomputable def dtc_fac_dtc_ratio_root (wing_span wing_thickness_to_chord_root wing_thickness_to_chord_tip wing_folded_span : ℝ) : ℝ :=
  (((du_root wing_span wing_thickness_to_chord_root wing_thickness_to_chord_tip
    wing_folded_span) * (v wing_thickness_to_chord_root wing_thickness_to_chord_tip)) - ((u
    wing_span wing_thickness_to_chord_root wing_thickness_to_chord_tip wing_folded_span) *
    (dv_root wing_thickness_to_chord_root wing_thickness_to_chord_tip))) / ((v
    wing_thickness_to_chord_root wing_thickness_to_chord_tip) ^ 2)

/-- aviary/subsystems/geometry/gasp_based/wing.py:1472 -/
noncomputable def dgeometric_fuel_vol_dtc_ratio_root (wing_span wing_thickness_to_chord_root wing_thickness_to_chord_tip fuselage_avg_diameter wing_volume_no_fold wing_folded_span : ℝ) : ℝ :=
  (((dtc_fac_dtc_ratio_root wing_span wing_thickness_to_chord_root wing_thickness_to_chord_tip
    wing_folded_span) * (wing_folded_span - fuselage_avg_diameter)) / (wing_span -
    fuselage_avg_diameter)) * wing_volume_no_fold

/-- aviary/subsystems/geometry/gasp_based/wing.py:1478 -/
noncomputable def dgeometric_fuel_vol_dtc_ratio_tip (wing_span wing_thickness_to_chord_root wing_thickness_to_chord_tip fuselage_avg_diameter wing_volume_no_fold wing_folded_span : ℝ) : ℝ :=
  (((dtc_fac_dtc_ratio_tip wing_span wing_thickness_to_chord_root wing_thickness_to_chord_tip
    wing_folded_span) * (wing_folded_span - fuselage_avg_diameter)) / (wing_span -
    fuselage_avg_diameter)) * wing_volume_no_fold

/-- aviary/subsystems/geometry/gasp_based/wing.py:1484 -/
noncomputable def dgeometric_fuel_vol_dwingspan (wing_span wing_thickness_to_chord_root wing_thickness_to_chord_tip fuselage_avg_diameter wing_volume_no_fold wing_folded_span : ℝ) : ℝ :=
  ((((dtc_fac_dwingspan wing_span wing_thickness_to_chord_root wing_thickness_to_chord_tip
    wing_folded_span) * (wing_folded_span - fuselage_avg_diameter)) / (wing_span -
    fuselage_avg_diameter)) * wing_volume_no_fold) - ((((tc_fac wing_span
    wing_thickness_to_chord_root wing_thickness_to_chord_tip wing_folded_span) *
    (wing_folded_span - fuselage_avg_diameter)) / ((wing_span - fuselage_avg_diameter) ^ 2)) *
    wing_volume_no_fold)

/-- aviary/subsystems/geometry/gasp_based/wing.py:1494 -/
noncomputable def dgeometric_fuel_vol_wrt (wing_span wing_thickness_to_chord_root wing_thickness_to_chord_tip fuselage_avg_diameter wing_volume_no_fold wing_folded_span : ℝ) : ℝ :=
  ((((dtc_fac_wrt wing_span wing_thickness_to_chord_root wing_thickness_to_chord_tip) *
    (wing_folded_span - fuselage_avg_diameter)) / (wing_span - fuselage_avg_diameter)) *
    wing_volume_no_fold) + (((((tc_fac wing_span wing_thickness_to_chord_root
    wing_thickness_to_chord_tip wing_folded_span) * 2) * (1 / 2)) / (wing_span -
    fuselage_avg_diameter)) * wing_volume_no_fold)

/-- aviary/subsystems/geometry/gasp_based/wing.py:1501 -/
noncomputable def dgeometric_fuel_vol_dwing_volume_no_fold (wing_span wing_thickness_to_chord_root wing_thickness_to_chord_tip fuselage_avg_diameter wing_folded_span : ℝ) : ℝ :=
  ((tc_fac wing_span wing_thickness_to_chord_root wing_thickness_to_chord_tip wing_folded_span)
    * (wing_folded_span - fuselage_avg_diameter)) / (wing_span - fuselage_avg_diameter)

/-- aviary/subsystems/geometry/gasp_based/wing.py:1504 -/
noncomputable def dgeometric_fuel_vol_dfuselage_width (wing_span wing_thickness_to_chord_root wing_thickness_to_chord_tip fuselage_avg_diameter wing_volume_no_fold wing_folded_span : ℝ) : ℝ :=
  (((-(tc_fac wing_span wing_thickness_to_chord_root wing_thickness_to_chord_tip
    wing_folded_span)) * (wing_span - wing_folded_span)) / ((wing_span - fuselage_avg_diameter)
    ^ 2)) * wing_volume_no_fold

/-- Output `fuel_wing_volume_geometric_max` of `BWBWingFoldVolume.compute`, aviary/subsystems/geometry/gasp_based/wing.py:1430 -/
noncomputable def out_fuel_wing_volume_geometric_max (wing_span wing_thickness_to_chord_root wing_thickness_to_chord_tip fuselage_avg_diameter wing_volume_no_fold wing_folded_span : ℝ) : ℝ :=
  geometric_fuel_vol wing_span wing_thickness_to_chord_root wing_thickness_to_chord_tip
    fuselage_avg_diameter wing_volume_no_fold wing_folded_span

/-- Partial of `fuel_wing_volume_geometric_max` with respect to `wing_volume_no_fold` as set by `BWBWingFoldVolume`, aviary/subsystems/geometry/gasp_based/wing.py:1511 -/
noncomputable def J_fuel_wing_volume_geometric_max__wing_volume_no_fold (wing_span wing_thickness_to_chord_root wing_thickness_to_chord_tip fuselage_avg_diameter wing_folded_span : ℝ) : ℝ :=
  dgeometric_fuel_vol_dwing_volume_no_fold wing_span wing_thickness_to_chord_root
    wing_thickness_to_chord_tip fuselage_avg_diameter wing_folded_span

/-- Partial of `fuel_wing_volume_geometric_max` with respect to `fuselage_avg_diameter` as set by `BWBWingFoldVolume`, aviary/subsystems/geometry/gasp_based/wing.py:1514 -/
noncomputable def J_fuel_wing_volume_geometric_max__fuselage_avg_diameter (wing_span wing_thickness_to_chord_root wing_thickness_to_chord_tip fuselage_avg_diameter wing_volume_no_fold wing_folded_span : ℝ) : ℝ :=
  dgeometric_fuel_vol_dfuselage_width wing_span wing_thickness_to_chord_root
    wing_thickness_to_chord_tip fuselage_avg_diameter wing_volume_no_fold wing_folded_span

/-- Partial of `fuel_wing_volume_geometric_max` with respect to `wing_folded_span` as set by `BWBWingFoldVolume`, aviary/subsystems/geometry/gasp_based/wing.py:1517 -/
noncomputable def J_fuel_wing_volume_geometric_max__wing_folded_span (wing_span wing_thickness_to_chord_root wing_thickness_to_chord_tip fuselage_avg_diameter wing_volume_no_fold wing_folded_span : ℝ) : ℝ :=
  dgeometric_fuel_vol_wrt wing_span wing_thickness_to_chord_root wing_thickness_to_chord_tip
    fuselage_avg_diameter wing_volume_no_fold wing_folded_span

/-- Partial of `fuel_wing_volume_geometric_max` with respect to `wing_span` as set by `BWBWingFoldVolume`, aviary/subsystems/geometry/gasp_based/wing.py:1518 -/
noncomputable def J_fuel_wing_volume_geometric_max__wing_span (wing_span wing_thickness_to_chord_root wing_thickness_to_chord_tip fuselage_avg_diameter wing_volume_no_fold wing_folded_span : ℝ) : ℝ :=
  dgeometric_fuel_vol_dwingspan wing_span wing_thickness_to_chord_root
    wing_thickness_to_chord_tip fuselage_avg_diameter wing_volume_no_fold wing_folded_span

/-- Partial of `fuel_wing_volume_geometric_max` with respect to `wing_thickness_to_chord_root` as set by `BWBWingFoldVolume`, aviary/subsystems/geometry/gasp_based/wing.py:1522 -/
noncomputable def J_fuel_wing_volume_geometric_max__wing_thickness_to_chord_root (wing_span wing_thickness_to_chord_root wing_thickness_to_chord_tip fuselage_avg_diameter wing_volume_no_fold wing_folded_span : ℝ) : ℝ :=
  dgeometric_fuel_vol_dtc_ratio_root wing_span wing_thickness_to_chord_root
    wing_thickness_to_chord_tip fuselage_avg_diameter wing_volume_no_fold wing_folded_span

/-- Partial of `fuel_wing_volume_geometric_max` with respect to `wing_thickness_to_chord_tip` as set by `BWBWingFoldVolume`, aviary/subsystems/geometry/gasp_based/wing.py:1525 -/
noncomputable def J_fuel_wing_volume_geometric_max__wing_thickness_to_chord_tip (wing_span wing_thickness_to_chord_root wing_thickness_to_chord_tip fuselage_avg_diameter wing_volume_no_fold wing_folded_span : ℝ) : ℝ :=
  dgeometric_fuel_vol_dtc_ratio_tip wing_span wing_thickness_to_chord_root
    wing_thickness_to_chord_tip fuselage_avg_diameter wing_volume_no_fold wing_folded_span

theorem d_fuel_wing_volume_geometric_max__wing_span (wing_span wing_thickness_to_chord_root
    wing_thickness_to_chord_tip fuselage_avg_diameter wing_volume_no_fold wing_folded_span : ℝ)
    (h0 : 0 < wing_span) (h1 : 0 < wing_thickness_to_chord_root) (h2 : 0 <
    wing_thickness_to_chord_tip) (h3 : wing_span - fuselage_avg_diameter ≠ 0) :
    HasDerivAt (fun t => out_fuel_wing_volume_geometric_max t wing_thickness_to_chord_root wing_thickness_to_chord_tip fuselage_avg_diameter wing_volume_no_fold wing_folded_span) (J_fuel_wing_volume_geometric_max__wing_span wing_span wing_thickness_to_chord_root wing_thickness_to_chord_tip fuselage_avg_diameter wing_volume_no_fold wing_folded_span) wing_span := by
  simp only [out_fuel_wing_volume_geometric_max, J_fuel_wing_volume_geometric_max__wing_span, dgeometric_fuel_vol_dwingspan, dtc_fac_dwingspan, dtc_ratio_fold_dwingspan, geometric_fuel_vol, tc_fac, tc_ratio_fold, location]
  (apply hasDerivAt_of_eq; on_goal 1 => (repeat' comp_step))
  all_goals try comp_side
  all_goals try simp only [mul_zero, zero_mul, add_zero, zero_add, sub_zero, zero_sub, mul_one, one_mul]
  all_goals try push_cast
  all_goals comp_eq

theorem d_fuel_wing_volume_geometric_max__wing_thickness_to_chord_root (wing_span
    wing_thickness_to_chord_root wing_thickness_to_chord_tip fuselage_avg_diameter
    wing_volume_no_fold wing_folded_span : ℝ) (h0 : 0 < wing_span) (h1 : 0 <
    wing_thickness_to_chord_root) (h2 : 0 < wing_thickness_to_chord_tip) (h3 : wing_span -
    fuselage_avg_diameter ≠ 0) :
    HasDerivAt (fun t => out_fuel_wing_volume_geometric_max wing_span t wing_thickness_to_chord_tip fuselage_avg_diameter wing_volume_no_fold wing_folded_span) (J_fuel_wing_volume_geometric_max__wing_thickness_to_chord_root wing_span wing_thickness_to_chord_root wing_thickness_to_chord_tip fuselage_avg_diameter wing_volume_no_fold wing_folded_span) wing_thickness_to_chord_root := by
  simp only [out_fuel_wing_volume_geometric_max, J_fuel_wing_volume_geometric_max__wing_thickness_to_chord_root, dgeometric_fuel_vol_dtc_ratio_root, dtc_fac_dtc_ratio_root, dv_root, u, v, du_root, dtc_ratio_fold_dtc_ratio_root, geometric_fuel_vol, tc_fac, tc_ratio_fold, location]
  (apply hasDerivAt_of_eq; on_goal 1 => (repeat' comp_step))
  all_goals try comp_side
  all_goals try simp only [mul_zero, zero_mul, add_zero, zero_add, sub_zero, zero_sub, mul_one, one_mul]
  all_goals try push_cast
  all_goals comp_eq

theorem d_fuel_wing_volume_geometric_max__wing_thickness_to_chord_tip (wing_span
    wing_thickness_to_chord_root wing_thickness_to_chord_tip fuselage_avg_diameter
    wing_volume_no_fold wing_folded_span : ℝ) (h0 : 0 < wing_span) (h1 : 0 <
    wing_thickness_to_chord_root) (h2 : 0 < wing_thickness_to_chord_tip) (h3 : wing_span -
    fuselage_avg_diameter ≠ 0) :
    HasDerivAt (fun t => out_fuel_wing_volume_geometric_max wing_span wing_thickness_to_chord_root t fuselage_avg_diameter wing_volume_no_fold wing_folded_span) (J_fuel_wing_volume_geometric_max__wing_thickness_to_chord_tip wing_span wing_thickness_to_chord_root wing_thickness_to_chord_tip fuselage_avg_diameter wing_volume_no_fold wing_folded_span) wing_thickness_to_chord_tip := by
  simp only [out_fuel_wing_volume_geometric_max, J_fuel_wing_volume_geometric_max__wing_thickness_to_chord_tip, dgeometric_fuel_vol_dtc_ratio_tip, dtc_fac_dtc_ratio_tip, dv_tip, u, v, du_tip, dtc_ratio_fold_dtc_ratio_tip, geometric_fuel_vol, tc_fac, tc_ratio_fold, location]
  (apply hasDerivAt_of_eq; on_goal 1 => (repeat' comp_step))
  all_goals try comp_side
  all_goals try simp only [mul_zero, zero_mul, add_zero, zero_add, sub_zero, zero_sub, mul_one, one_mul]
  all_goals try push_cast
  all_goals comp_eq

theorem d_fuel_wing_volume_geometric_max__fuselage_avg_diameter (wing_span
    wing_thickness_to_chord_root wing_thickness_to_chord_tip fuselage_avg_diameter
    wing_volume_no_fold wing_folded_span : ℝ) (h0 : 0 < wing_span) (h1 : 0 <
    wing_thickness_to_chord_root) (h2 : 0 < wing_thickness_to_chord_tip) (h3 : wing_span -
    fuselage_avg_diameter ≠ 0) :
    HasDerivAt (fun t => out_fuel_wing_volume_geometric_max wing_span wing_thickness_to_chord_root wing_thickness_to_chord_tip t wing_volume_no_fold wing_folded_span) (J_fuel_wing_volume_geometric_max__fuselage_avg_diameter wing_span wing_thickness_to_chord_root wing_thickness_to_chord_tip fuselage_avg_diameter wing_volume_no_fold wing_folded_span) fuselage_avg_diameter := by
  simp only [out_fuel_wing_volume_geometric_max, J_fuel_wing_volume_geometric_max__fuselage_avg_diameter, dgeometric_fuel_vol_dfuselage_width, geometric_fuel_vol, tc_fac, tc_ratio_fold, location]
  (apply hasDerivAt_of_eq; on_goal 1 => (repeat' comp_step))
  all_goals try comp_side
  all_goals try simp only [mul_zero, zero_mul, add_zero, zero_add, sub_zero, zero_sub, mul_one, one_mul]
  all_goals try push_cast
  all_goals comp_eq

theorem d_fuel_wing_volume_geometric_max__wing_volume_no_fold (wing_span
    wing_thickness_to_chord_root wing_thickness_to_chord_tip fuselage_avg_diameter
    wing_volume_no_fold wing_folded_span : ℝ) (h0 : 0 < wing_span) (h1 : 0 <
    wing_thickness_to_chord_root) (h2 : 0 < wing_thickness_to_chord_tip) (h3 : wing_span -
    fuselage_avg_diameter ≠ 0) :
    HasDerivAt (fun t => out_fuel_wing_volume_geometric_max wing_span wing_thickness_to_chord_root wing_thickness_to_chord_tip fuselage_avg_diameter t wing_folded_span) (J_fuel_wing_volume_geometric_max__wing_volume_no_fold wing_span wing_thickness_to_chord_root wing_thickness_to_chord_tip fuselage_avg_diameter wing_folded_span) wing_volume_no_fold := by
  simp only [out_fuel_wing_volume_geometric_max, J_fuel_wing_volume_geometric_max__wing_volume_no_fold, dgeometric_fuel_vol_dwing_volume_no_fold, geometric_fuel_vol, tc_fac, tc_ratio_fold, location]
  (apply hasDerivAt_of_eq; on_goal 1 => (repeat' comp_step))
  all_goals try comp_side
  all_goals try simp only [mul_zero, zero_mul, add_zero, zero_add, sub_zero, zero_sub, mul_one, one_mul]
  all_goals try push_cast
  all_goals comp_eq

theorem d_fuel_wing_volume_geometric_max__wing_folded_span (wing_span wing_thickness_to_chord_root
    wing_thickness_to_chord_tip fuselage_avg_diameter wing_volume_no_fold wing_folded_span : ℝ)
    (h0 : 0 < wing_span) (h1 : 0 < wing_thickness_to_chord_root) (h2 : 0 <
    wing_thickness_to_chord_tip) (h3 : wing_span - fuselage_avg_diameter ≠ 0) :
    HasDerivAt (fun t => out_fuel_wing_volume_geometric_max wing_span wing_thickness_to_chord_root wing_thickness_to_chord_tip fuselage_avg_diameter wing_volume_no_fold t) (J_fuel_wing_volume_geometric_max__wing_folded_span wing_span wing_thickness_to_chord_root wing_thickness_to_chord_tip fuselage_avg_diameter wing_volume_no_fold wing_folded_span) wing_folded_span := by
  simp only [out_fuel_wing_volume_geometric_max, J_fuel_wing_volume_geometric_max__wing_folded_span, dgeometric_fuel_vol_wrt, dtc_fac_wrt, dtc_ratio_fold_wrt, geometric_fuel_vol, tc_fac, tc_ratio_fold, location]
  (apply hasDerivAt_of_eq; on_goal 1 => (repeat' comp_step))
  all_goals try comp_side
  all_goals try simp only [mul_zero, zero_mul, add_zero, zero_add, sub_zero, zero_sub, mul_one, one_mul]
  all_goals try push_cast
  all_goals comp_eq

/-- Every partial derivative set by `BWBWingFoldVolume` is the derivative of its output. -/
theorem partials (wing_span wing_thickness_to_chord_root wing_thickness_to_chord_tip
    fuselage_avg_diameter wing_volume_no_fold wing_folded_span : ℝ) (h0 : 0 < wing_span) (h1 : 0 <
    wing_thickness_to_chord_root) (h2 : 0 < wing_thickness_to_chord_tip) (h3 : wing_span -
    fuselage_avg_diameter ≠ 0) :
    HasDerivAt (fun t => out_fuel_wing_volume_geometric_max t wing_thickness_to_chord_root
      wing_thickness_to_chord_tip fuselage_avg_diameter wing_volume_no_fold wing_folded_span)
      (J_fuel_wing_volume_geometric_max__wing_span wing_span wing_thickness_to_chord_root
      wing_thickness_to_chord_tip fuselage_avg_diameter wing_volume_no_fold wing_folded_span)
      wing_span ∧
    HasDerivAt (fun t => out_fuel_wing_volume_geometric_max wing_span t wing_thickness_to_chord_tip
      fuselage_avg_diameter wing_volume_no_fold wing_folded_span)
      (J_fuel_wing_volume_geometric_max__wing_thickness_to_chord_root wing_span
      wing_thickness_to_chord_root wing_thickness_to_chord_tip fuselage_avg_diameter
      wing_volume_no_fold wing_folded_span) wing_thickness_to_chord_root ∧
    HasDerivAt (fun t => out_fuel_wing_volume_geometric_max wing_span wing_thickness_to_chord_root t
      fuselage_avg_diameter wing_volume_no_fold wing_folded_span)
      (J_fuel_wing_volume_geometric_max__wing_thickness_to_chord_tip wing_span
      wing_thickness_to_chord_root wing_thickness_to_chord_tip fuselage_avg_diameter
      wing_volume_no_fold wing_folded_span) wing_thickness_to_chord_tip ∧
    HasDerivAt (fun t => out_fuel_wing_volume_geometric_max wing_span wing_thickness_to_chord_root
      wing_thickness_to_chord_tip t wing_volume_no_fold wing_folded_span)
      (J_fuel_wing_volume_geometric_max__fuselage_avg_diameter wing_span
      wing_thickness_to_chord_root wing_thickness_to_chord_tip fuselage_avg_diameter
      wing_volume_no_fold wing_folded_span) fuselage_avg_diameter ∧
    HasDerivAt (fun t => out_fuel_wing_volume_geometric_max wing_span wing_thickness_to_chord_root
      wing_thickness_to_chord_tip fuselage_avg_diameter t wing_folded_span)
      (J_fuel_wing_volume_geometric_max__wing_volume_no_fold wing_span
      wing_thickness_to_chord_root wing_thickness_to_chord_tip fuselage_avg_diameter
      wing_folded_span) wing_volume_no_fold ∧
    HasDerivAt (fun t => out_fuel_wing_volume_geometric_max wing_span wing_thickness_to_chord_root
      wing_thickness_to_chord_tip fuselage_avg_diameter wing_volume_no_fold t)
      (J_fuel_wing_volume_geometric_max__wing_folded_span wing_span wing_thickness_to_chord_root
      wing_thickness_to_chord_tip fuselage_avg_diameter wing_volume_no_fold wing_folded_span)
      wing_folded_span :=
  ⟨d_fuel_wing_volume_geometric_max__wing_span _ _ _ _ _ _ h0 h1 h2 h3,
    d_fuel_wing_volume_geometric_max__wing_thickness_to_chord_root _ _ _ _ _ _ h0 h1 h2 h3,
    d_fuel_wing_volume_geometric_max__wing_thickness_to_chord_tip _ _ _ _ _ _ h0 h1 h2 h3,
    d_fuel_wing_volume_geometric_max__fuselage_avg_diameter _ _ _ _ _ _ h0 h1 h2 h3,
    d_fuel_wing_volume_geometric_max__wing_volume_no_fold _ _ _ _ _ _ h0 h1 h2 h3,
    d_fuel_wing_volume_geometric_max__wing_folded_span _ _ _ _ _ _ h0 h1 h2 h3⟩

example : ∃ wing_span wing_thickness_to_chord_root wing_thickness_to_chord_tip
      fuselage_avg_diameter wing_volume_no_fold wing_folded_span : ℝ,
      0 < wing_span ∧
      0 < wing_thickness_to_chord_root ∧
      0 < wing_thickness_to_chord_tip ∧
      wing_span - fuselage_avg_diameter ≠ 0 :=
  ⟨1, 1, 1, 0, 0, 0, by comp_example, by comp_example, by comp_example, by comp_example⟩

end Verif.Comp.GeometryGaspBasedWing.BWBWingFoldVolume_wingchoosefoldlocation

namespace Verif.Comp.GeometryGaspBasedWing.BWBWingFoldVolume_no_wingchoosefoldlocation
open Real

/-- aviary/subsystems/geometry/gasp_based/wing.py:1417 -/
noncomputable def fold_span (strut_y : ℝ) : ℝ := strut_y * 2

/-- aviary/subsystems/geometry/gasp_based/wing.py:1420 -/
noncomputable def location (strut_y : ℝ) : ℝ := (fold_span strut_y) / 2

/-- aviary/subsystems/geometry/gasp_based/wing.py:1422 -/
noncomputable def tc_ratio_fold (wing_span wing_thickness_to_chord_root wing_thickness_to_chord_tip strut_y : ℝ) : ℝ :=
  wing_thickness_to_chord_root + (((2 * (location strut_y)) * (wing_thickness_to_chord_tip -
    wing_thickness_to_chord_root)) / wing_span)

/-- aviary/subsystems/geometry/gasp_based/wing.py:1423 -/
noncomputable def tc_fac (wing_span wing_thickness_to_chord_root wing_thickness_to_chord_tip strut_y : ℝ) : ℝ :=
  (1 + ((tc_ratio_fold wing_span wing_thickness_to_chord_root wing_thickness_to_chord_tip
    strut_y) / wing_thickness_to_chord_root)) / (1 + (wing_thickness_to_chord_tip /
    wing_thickness_to_chord_root))

/-- aviary/subsystems/geometry/gasp_based/wing.py:1424 -/
noncomputable def geometric_fuel_vol (wing_span wing_thickness_to_chord_root wing_thickness_to_chord_tip fuselage_avg_diameter wing_volume_no_fold strut_y : ℝ) : ℝ :=
  (((tc_fac wing_span wing_thickness_to_chord_root wing_thickness_to_chord_tip strut_y) *
    ((fold_span strut_y) - fuselage_avg_diameter)) / (wing_span - fuselage_avg_diameter)) *
    wing_volume_no_fold

/-- aviary/subsystems/geometry/gasp_based/wing.py:1452 -/
noncomputable def dtc_ratio_fold_wrt (wing_span wing_thickness_to_chord_root wing_thickness_to_chord_tip : ℝ) : ℝ :=
  (2 * (wing_thickness_to_chord_tip - wing_thickness_to_chord_root)) / wing_span

/-- aviary/subsystems/geometry/gasp_based/wing.py:1453 -/
noncomputable def dtc_ratio_fold_dwingspan (wing_span wing_thickness_to_chord_root wing_thickness_to_chord_tip strut_y : ℝ) : ℝ :=
  (((-2) * (location strut_y)) * (wing_thickness_to_chord_tip - wing_thickness_to_chord_root)) /
    (wing_span ^ 2)

/-- aviary/subsystems/geometry/gasp_based/wing.py:1454 -/
noncomputable def dtc_ratio_fold_dtc_ratio_root (wing_span strut_y : ℝ) : ℝ :=
  1 - ((2 * (location strut_y)) / wing_span)

/-- aviary/subsystems/geometry/gasp_based/wing.py:1455 -/
noncomputable def dtc_ratio_fold_dtc_ratio_tip (wing_span strut_y : ℝ) : ℝ :=
  (2 * (location strut_y)) / wing_span

/-- aviary/subsystems/geometry/gasp_based/wing.py:1457 -/
noncomputable def u (wing_span wing_thickness_to_chord_root wing_thickness_to_chord_tip strut_y : ℝ) : ℝ :=
  1 + ((tc_ratio_fold wing_span wing_thickness_to_chord_root wing_thickness_to_chord_tip
    strut_y) / wing_thickness_to_chord_root)

/-- aviary/subsystems/geometry/gasp_based/wing.py:1458 -/
noncomputable def v (wing_thickness_to_chord_root wing_thickness_to_chord_tip : ℝ) : ℝ :=
  1 + (wing_thickness_to_chord_tip / wing_thickness_to_chord_root)

/-- aviary/subsystems/geometry/gasp_based/wing.py:1460 -/
noncomputable def dtc_fac_wrt (wing_span wing_thickness_to_chord_root wing_thickness_to_chord_tip : ℝ) : ℝ :=
  ((dtc_ratio_fold_wrt wing_span wing_thickness_to_chord_root wing_thickness_to_chord_tip) /
    wing_thickness_to_chord_root) / (1 + (wing_thickness_to_chord_tip /
    wing_thickness_to_chord_root))

/-- aviary/subsystems/geometry/gasp_based/wing.py:1461 -/
noncomputable def dtc_fac_dwingspan (wing_span wing_thickness_to_chord_root wing_thickness_to_chord_tip strut_y : ℝ) : ℝ :=
  ((dtc_ratio_fold_dwingspan wing_span wing_thickness_to_chord_root wing_thickness_to_chord_tip
    strut_y) / wing_thickness_to_chord_root) / (1 + (wing_thickness_to_chord_tip /
    wing_thickness_to_chord_root))

/-- aviary/subsystems/geometry/gasp_based/wing.py:1465 -/
noncomputable def du_tip (wing_span wing_thickness_to_chord_root strut_y : ℝ) : ℝ :=
  (dtc_ratio_fold_dtc_ratio_tip wing_span strut_y) / wing_thickness_to_chord_root

/-- aviary/subsystems/geometry/gasp_based/wing.py:1466 -/
noncomputable def dv_tip (wing_thickness_to_chord_root : ℝ) : ℝ := 1 / wing_thickness_to_chord_root

/-- aviary/subsystems/geometry/gasp_based/wing.py:1467 -/
noncomputable def dtc_fac_dtc_ratio_tip (wing_span wing_thickness_to_chord_root wing_thickness_to_chord_tip strut_y : ℝ) : ℝ :=
  (((du_tip wing_span wing_thickness_to_chord_root strut_y) * (v wing_thickness_to_chord_root
    wing_thickness_to_chord_tip)) - ((u wing_span wing_thickness_to_chord_root
    wing_thickness_to_chord_tip strut_y) * (dv_tip wing_thickness_to_chord_root))) / ((v
    wing_thickness_to_chord_root wing_thickness_to_chord_tip) ^ 2)

/-- aviary/subsystems/geometry/gasp_based/wing.py:1468 -/
noncomputable def du_root (wing_span wing_thickness_to_chord_root wing_thickness_to_chord_tip strut_y : ℝ) : ℝ :=
  (((dtc_ratio_fold_dtc_ratio_root wing_span strut_y) * wing_thickness_to_chord_root) -
    (tc_ratio_fold wing_span wing_thickness_to_chord_root wing_thickness_to_chord_tip strut_y))
    / (wing_thickness_to_chord_root ^ 2)

/-- aviary/subsystems/geometry/gasp_based/wing.py:1469 -/
noncomputable def dv_root (wing_thickness_to_chord_root wing_thickness_to_chord_tip : ℝ) : ℝ :=
  (-wing_thickness_to_chord_tip) / (wing_thickness_to_chord_root ^ 2)

/-- aviary/subsystems/geometry/gasp_based/wing.py:1470 -/
noncomputable def dtc_fac_dtc_ratio_root (wing_span wing_thickness_to_chord_root wing_thickness_to_chord_tip strut_y : ℝ) : ℝ :=
  (((du_root wing_span wing_thickness_to_chord_root wing_thickness_to_chord_tip strut_y) * (v
    wing_thickness_to_chord_root wing_thickness_to_chord_tip)) - ((u wing_span
    wing_thickness_to_chord_root wing_thickness_to_chord_tip strut_y) * (dv_root
    wing_thickness_to_chord_root wing_thickness_to_chord_tip))) / ((v
    wing_thickness_to_chord_root wing_thickness_to_chord_tip) ^ 2)

/-- aviary/subsystems/geometry/gasp_based/wing.py:1472 -/
noncomputable def dgeometric_fuel_vol_dtc_ratio_root (wing_span wing_thickness_to_chord_root wing_thickness_to_chord_tip fuselage_avg_diameter wing_volume_no_fold strut_y : ℝ) : ℝ :=
  (((dtc_fac_dtc_ratio_root wing_span wing_thickness_to_chord_root wing_thickness_to_chord_tip
    strut_y) * ((fold_span strut_y) - fuselage_avg_diameter)) / (wing_span -
    fuselage_avg_diameter)) * wing_volume_no_fold

/-- aviary/subsystems/geometry/gasp_based/wing.py:1478 -/
noncomputable def dgeometric_fuel_vol_dtc_ratio_tip (wing_span wing_thickness_to_chord_root wing_thickness_to_chord_tip fuselage_avg_diameter wing_volume_no_fold strut_y : ℝ) : ℝ :=
  (((dtc_fac_dtc_ratio_tip wing_span wing_thickness_to_chord_root wing_thickness_to_chord_tip
    strut_y) * ((fold_span strut_y) - fuselage_avg_diameter)) / (wing_span -
    fuselage_avg_diameter)) * wing_volume_no_fold

/-- aviary/subsystems/geometry/gasp_based/wing.py:1484 -/
noncomputable def dgeometric_fuel_vol_dwingspan (wing_span wing_thickness_to_chord_root wing_thickness_to_chord_tip fuselage_avg_diameter wing_volume_no_fold strut_y : ℝ) : ℝ :=
  ((((dtc_fac_dwingspan wing_span wing_thickness_to_chord_root wing_thickness_to_chord_tip
    strut_y) * ((fold_span strut_y) - fuselage_avg_diameter)) / (wing_span -
    fuselage_avg_diameter)) * wing_volume_no_fold) - ((((tc_fac wing_span
    wing_thickness_to_chord_root wing_thickness_to_chord_tip strut_y) * ((fold_span strut_y) -
    fuselage_avg_diameter)) / ((wing_span - fuselage_avg_diameter) ^ 2)) * wing_volume_no_fold)

/-- aviary/subsystems/geometry/gasp_based/wing.py:1494 -/
noncomputable def dgeometric_fuel_vol_wrt (wing_span wing_thickness_to_chord_root wing_thickness_to_chord_tip fuselage_avg_diameter wing_volume_no_fold strut_y : ℝ) : ℝ :=
  ((((dtc_fac_wrt wing_span wing_thickness_to_chord_root wing_thickness_to_chord_tip) *
    ((fold_span strut_y) - fuselage_avg_diameter)) / (wing_span - fuselage_avg_diameter)) *
    wing_volume_no_fold) + ((((tc_fac wing_span wing_thickness_to_chord_root
    wing_thickness_to_chord_tip strut_y) * 2) / (wing_span - fuselage_avg_diameter)) *
    wing_volume_no_fold)

/-- aviary/subsystems/geometry/gasp_based/wing.py:1501 -/
noncomputable def dgeometric_fuel_vol_dwing_volume_no_fold (wing_span wing_thickness_to_chord_root wing_thickness_to_chord_tip fuselage_avg_diameter strut_y : ℝ) : ℝ :=
  ((tc_fac wing_span wing_thickness_to_chord_root wing_thickness_to_chord_tip strut_y) *
    ((fold_span strut_y) - fuselage_avg_diameter)) / (wing_span - fuselage_avg_diameter)

/-- aviary/subsystems/geometry/gasp_based/wing.py:1504 -/
noncomputable def dgeometric_fuel_vol_dfuselage_width (wing_span wing_thickness_to_chord_root wing_thickness_to_chord_tip fuselage_avg_diameter wing_volume_no_fold strut_y : ℝ) : ℝ :=
  (((-(tc_fac wing_span wing_thickness_to_chord_root wing_thickness_to_chord_tip strut_y)) *
    (wing_span - (fold_span strut_y))) / ((wing_span - fuselage_avg_diameter) ^ 2)) *
    wing_volume_no_fold

/-- Output `fuel_wing_volume_geometric_max` of `BWBWingFoldVolume.compute`, aviary/subsystems/geometry/gasp_based/wing.py:1430 -/
noncomputable def out_fuel_wing_volume_geometric_max (wing_span wing_thickness_to_chord_root wing_thickness_to_chord_tip fuselage_avg_diameter wing_volume_no_fold strut_y : ℝ) : ℝ :=
  geometric_fuel_vol wing_span wing_thickness_to_chord_root wing_thickness_to_chord_tip
    fuselage_avg_diameter wing_volume_no_fold strut_y

/-- Partial of `fuel_wing_volume_geometric_max` with respect to `wing_volume_no_fold` as set by `BWBWingFoldVolume`, aviary/subsystems/geometry/gasp_based/wing.py:1511 -/
noncomputable def J_fuel_wing_volume_geometric_max__wing_volume_no_fold (wing_span wing_thickness_to_chord_root wing_thickness_to_chord_tip fuselage_avg_diameter strut_y : ℝ) : ℝ :=
  dgeometric_fuel_vol_dwing_volume_no_fold wing_span wing_thickness_to_chord_root
    wing_thickness_to_chord_tip fuselage_avg_diameter strut_y

/-- Partial of `fuel_wing_volume_geometric_max` with respect to `fuselage_avg_diameter` as set by `BWBWingFoldVolume`, aviary/subsystems/geometry/gasp_based/wing.py:1514 -/
noncomputable def J_fuel_wing_volume_geometric_max__fuselage_avg_diameter (wing_span wing_thickness_to_chord_root wing_thickness_to_chord_tip fuselage_avg_diameter wing_volume_no_fold strut_y : ℝ) : ℝ :=
  dgeometric_fuel_vol_dfuselage_width wing_span wing_thickness_to_chord_root
    wing_thickness_to_chord_tip fuselage_avg_diameter wing_volume_no_fold strut_y

/-- Partial of `fuel_wing_volume_geometric_max` with respect to `strut_y` as set by `BWBWingFoldVolume`, aviary/subsystems/geometry/gasp_based/wing.py:1517 -/
noncomputable def J_fuel_wing_volume_geometric_max__strut_y (wing_span wing_thickness_to_chord_root wing_thickness_to_chord_tip fuselage_avg_diameter wing_volume_no_fold strut_y : ℝ) : ℝ :=
  dgeometric_fuel_vol_wrt wing_span wing_thickness_to_chord_root wing_thickness_to_chord_tip
    fuselage_avg_diameter wing_volume_no_fold strut_y

/-- Partial of `fuel_wing_volume_geometric_max` with respect to `wing_span` as set by `BWBWingFoldVolume`, aviary/subsystems/geometry/gasp_based/wing.py:1518 -/
noncomputable def J_fuel_wing_volume_geometric_max__wing_span (wing_span wing_thickness_to_chord_root wing_thickness_to_chord_tip fuselage_avg_diameter wing_volume_no_fold strut_y : ℝ) : ℝ :=
  dgeometric_fuel_vol_dwingspan wing_span wing_thickness_to_chord_root
    wing_thickness_to_chord_tip fuselage_avg_diameter wing_volume_no_fold strut_y

/-- Partial of `fuel_wing_volume_geometric_max` with respect to `wing_thickness_to_chord_root` as set by `BWBWingFoldVolume`, aviary/subsystems/geometry/gasp_based/wing.py:1522 -/
noncomputable def J_fuel_wing_volume_geometric_max__wing_thickness_to_chord_root (wing_span wing_thickness_to_chord_root wing_thickness_to_chord_tip fuselage_avg_diameter wing_volume_no_fold strut_y : ℝ) : ℝ :=
  dgeometric_fuel_vol_dtc_ratio_root wing_span wing_thickness_to_chord_root
    wing_thickness_to_chord_tip fuselage_avg_diameter wing_volume_no_fold strut_y

/-- Partial of `fuel_wing_volume_geometric_max` with respect to `wing_thickness_to_chord_tip` as set by `BWBWingFoldVolume`, aviary/subsystems/geometry/gasp_based/wing.py:1525 -/
noncomputable def J_fuel_wing_volume_geometric_max__wing_thickness_to_chord_tip (wing_span wing_thickness_to_chord_root wing_thickness_to_chord_tip fuselage_avg_diameter wing_volume_no_fold strut_y : ℝ) : ℝ :=
  dgeometric_fuel_vol_dtc_ratio_tip wing_span wing_thickness_to_chord_root
    wing_thickness_to_chord_tip fuselage_avg_diameter wing_volume_no_fold strut_y

theorem d_fuel_wing_volume_geometric_max__wing_span (wing_span wing_thickness_to_chord_root
    wing_thickness_to_chord_tip fuselage_avg_diameter wing_volume_no_fold strut_y : ℝ) (h0 : 0 <
    wing_span) (h1 : 0 < wing_thickness_to_chord_root) (h2 : 0 < wing_thickness_to_chord_tip) (h3
    : wing_span - fuselage_avg_diameter ≠ 0) :
    HasDerivAt (fun t => out_fuel_wing_volume_geometric_max t wing_thickness_to_chord_root wing_thickness_to_chord_tip fuselage_avg_diameter wing_volume_no_fold strut_y) (J_fuel_wing_volume_geometric_max__wing_span wing_span wing_thickness_to_chord_root wing_thickness_to_chord_tip fuselage_avg_diameter wing_volume_no_fold strut_y) wing_span := by
  simp only [out_fuel_wing_volume_geometric_max, J_fuel_wing_volume_geometric_max__wing_span, dgeometric_fuel_vol_dwingspan, dtc_fac_dwingspan, dtc_ratio_fold_dwingspan, geometric_fuel_vol, tc_fac, tc_ratio_fold, location, fold_span]
  (apply hasDerivAt_of_eq; on_goal 1 => (repeat' comp_step))
  all_goals try comp_side
  all_goals try simp only [mul_zero, zero_mul, add_zero, zero_add, sub_zero, zero_sub, mul_one, one_mul]
  all_goals try push_cast
  all_goals comp_eq

theorem d_fuel_wing_volume_geometric_max__wing_thickness_to_chord_root (wing_span
    wing_thickness_to_chord_root wing_thickness_to_chord_tip fuselage_avg_diameter
    wing_volume_no_fold strut_y : ℝ) (h0 : 0 < wing_span) (h1 : 0 < wing_thickness_to_chord_root)
    (h2 : 0 < wing_thickness_to_chord_tip) (h3 : wing_span - fuselage_avg_diameter ≠ 0) :
    HasDerivAt (fun t => out_fuel_wing_volume_geometric_max wing_span t wing_thickness_to_chord_tip fuselage_avg_diameter wing_volume_no_fold strut_y) (J_fuel_wing_volume_geometric_max__wing_thickness_to_chord_root wing_span wing_thickness_to_chord_root wing_thickness_to_chord_tip fuselage_avg_diameter wing_volume_no_fold strut_y) wing_thickness_to_chord_root := by
  simp only [out_fuel_wing_volume_geometric_max, J_fuel_wing_volume_geometric_max__wing_thickness_to_chord_root, dgeometric_fuel_vol_dtc_ratio_root, dtc_fac_dtc_ratio_root, dv_root, u, v, du_root, dtc_ratio_fold_dtc_ratio_root, geometric_fuel_vol, tc_fac, tc_ratio_fold, location, fold_span]
  (apply hasDerivAt_of_eq; on_goal 1 => (repeat' comp_step))
  all_goals try comp_side
  all_goals try simp only [mul_zero, zero_mul, add_zero, zero_add, sub_zero, zero_sub, mul_one, one_mul]
  all_goals try push_cast
  all_goals comp_eq

theorem d_fuel_wing_volume_geometric_max__wing_thickness_to_chord_tip (wing_span
    wing_thickness_to_chord_root wing_thickness_to_chord_tip fuselage_avg_diameter
    wing_volume_no_fold strut_y : ℝ) (h0 : 0 < wing_span) (h1 : 0 < wing_thickness_to_chord_root)
    (h2 : 0 < wing_thickness_to_chord_tip) (h3 : wing_span - fuselage_avg_diameter ≠ 0) :
    HasDerivAt (fun t => out_fuel_wing_volume_geometric_max wing_span wing_thickness_to_chord_root t fuselage_avg_diameter wing_volume_no_fold strut_y) (J_fuel_wing_volume_geometric_max__wing_thickness_to_chord_tip wing_span wing_thickness_to_chord_root wing_thickness_to_chord_tip fuselage_avg_diameter wing_volume_no_fold strut_y) wing_thickness_to_chord_tip := by
  simp only [out_fuel_wing_volume_geometric_max, J_fuel_wing_volume_geometric_max__wing_thickness_to_chord_tip, dgeometric_fuel_vol_dtc_ratio_tip, dtc_fac_dtc_ratio_tip, dv_tip, u, v, du_tip, dtc_ratio_fold_dtc_ratio_tip, geometric_fuel_vol, tc_fac, tc_ratio_fold, location, fold_span]
  (apply hasDerivAt_of_eq; on_goal 1 => (repeat' comp_step))
  all_goals try comp_side
  all_goals try simp only [mul_zero, zero_mul, add_zero, zero_add, sub_zero, zero_sub, mul_one, one_mul]
  all_goals try push_cast
  all_goals comp_eq

theorem d_fuel_wing_volume_geometric_max__fuselage_avg_diameter (wing_span
    wing_thickness_to_chord_root wing_thickness_to_chord_tip fuselage_avg_diameter
    wing_volume_no_fold strut_y : ℝ) (h0 : 0 < wing_span) (h1 : 0 < wing_thickness_to_chord_root)
    (h2 : 0 < wing_thickness_to_chord_tip) (h3 : wing_span - fuselage_avg_diameter ≠ 0) :
    HasDerivAt (fun t => out_fuel_wing_volume_geometric_max wing_span wing_thickness_to_chord_root wing_thickness_to_chord_tip t wing_volume_no_fold strut_y) (J_fuel_wing_volume_geometric_max__fuselage_avg_diameter wing_span wing_thickness_to_chord_root wing_thickness_to_chord_tip fuselage_avg_diameter wing_volume_no_fold strut_y) fuselage_avg_diameter := by
  simp only [out_fuel_wing_volume_geometric_max, J_fuel_wing_volume_geometric_max__fuselage_avg_diameter, dgeometric_fuel_vol_dfuselage_width, geometric_fuel_vol, tc_fac, tc_ratio_fold, location, fold_span]
  (apply hasDerivAt_of_eq; on_goal 1 => (repeat' comp_step))
  all_goals try comp_side
  all_goals try simp only [mul_zero, zero_mul, add_zero, zero_add, sub_zero, zero_sub, mul_one, one_mul]
  all_goals try push_cast
  all_goals comp_eq

theorem d_fuel_wing_volume_geometric_max__wing_volume_no_fold (wing_span
    wing_thickness_to_chord_root wing_thickness_to_chord_tip fuselage_avg_diameter
    wing_volume_no_fold strut_y : ℝ) (h0 : 0 < wing_span) (h1 : 0 < wing_thickness_to_chord_root)
    (h2 : 0 < wing_thickness_to_chord_tip) (h3 : wing_span - fuselage_avg_diameter ≠ 0) :
    HasDerivAt (fun t => out_fuel_wing_volume_geometric_max wing_span wing_thickness_to_chord_root wing_thickness_to_chord_tip fuselage_avg_diameter t strut_y) (J_fuel_wing_volume_geometric_max__wing_volume_no_fold wing_span wing_thickness_to_chord_root wing_thickness_to_chord_tip fuselage_avg_diameter strut_y) wing_volume_no_fold := by
  simp only [out_fuel_wing_volume_geometric_max, J_fuel_wing_volume_geometric_max__wing_volume_no_fold, dgeometric_fuel_vol_dwing_volume_no_fold, geometric_fuel_vol, tc_fac, tc_ratio_fold, location, fold_span]
  (apply hasDerivAt_of_eq; on_goal 1 => (repeat' comp_step))
  all_goals try comp_side
  all_goals try simp only [mul_zero, zero_mul, add_zero, zero_add, sub_zero, zero_sub, mul_one, one_mul]
  all_goals try push_cast
  all_goals comp_eq

theorem d_fuel_wing_volume_geometric_max__strut_y (wing_span wing_thickness_to_chord_root
    wing_thickness_to_chord_tip fuselage_avg_diameter wing_volume_no_fold strut_y : ℝ) (h0 : 0 <
    wing_span) (h1 : 0 < wing_thickness_to_chord_root) (h2 : 0 < wing_thickness_to_chord_tip) (h3
    : wing_span - fuselage_avg_diameter ≠ 0) :
    HasDerivAt (fun t => out_fuel_wing_volume_geometric_max wing_span wing_thickness_to_chord_root wing_thickness_to_chord_tip fuselage_avg_diameter wing_volume_no_fold t) (J_fuel_wing_volume_geometric_max__strut_y wing_span wing_thickness_to_chord_root wing_thickness_to_chord_tip fuselage_avg_diameter wing_volume_no_fold strut_y) strut_y := by
  simp only [out_fuel_wing_volume_geometric_max, J_fuel_wing_volume_geometric_max__strut_y, dgeometric_fuel_vol_wrt, dtc_fac_wrt, dtc_ratio_fold_wrt, geometric_fuel_vol, tc_fac, tc_ratio_fold, location, fold_span]
  (apply hasDerivAt_of_eq; on_goal 1 => (repeat' comp_step))
  all_goals try comp_side
  all_goals try simp only [mul_zero, zero_mul, add_zero, zero_add, sub_zero, zero_sub, mul_one, one_mul]
  all_goals try push_cast
  all_goals comp_eq

/-- Every partial derivative set by `BWBWingFoldVolume` is the derivative of its output. -/
theorem partials (wing_span wing_thickness_to_chord_root wing_thickness_to_chord_tip
    fuselage_avg_diameter wing_volume_no_fold strut_y : ℝ) (h0 : 0 < wing_span) (h1 : 0 <
    wing_thickness_to_chord_root) (h2 : 0 < wing_thickness_to_chord_tip) (h3 : wing_span -
    fuselage_avg_diameter ≠ 0) :
    HasDerivAt (fun t => out_fuel_wing_volume_geometric_max t wing_thickness_to_chord_root
      wing_thickness_to_chord_tip fuselage_avg_diameter wing_volume_no_fold strut_y)
      (J_fuel_wing_volume_geometric_max__wing_span wing_span wing_thickness_to_chord_root
      wing_thickness_to_chord_tip fuselage_avg_diameter wing_volume_no_fold strut_y) wing_span ∧
    HasDerivAt (fun t => out_fuel_wing_volume_geometric_max wing_span t wing_thickness_to_chord_tip
      fuselage_avg_diameter wing_volume_no_fold strut_y)
      (J_fuel_wing_volume_geometric_max__wing_thickness_to_chord_root wing_span
      wing_thickness_to_chord_root wing_thickness_to_chord_tip fuselage_avg_diameter
      wing_volume_no_fold strut_y) wing_thickness_to_chord_root ∧
    HasDerivAt (fun t => out_fuel_wing_volume_geometric_max wing_span wing_thickness_to_chord_root t
      fuselage_avg_diameter wing_volume_no_fold strut_y)
      (J_fuel_wing_volume_geometric_max__wing_thickness_to_chord_tip wing_span
      wing_thickness_to_chord_root wing_thickness_to_chord_tip fuselage_avg_diameter
      wing_volume_no_fold strut_y) wing_thickness_to_chord_tip ∧
    HasDerivAt (fun t => out_fuel_wing_volume_geometric_max wing_span wing_thickness_to_chord_root
      wing_thickness_to_chord_tip t wing_volume_no_fold strut_y)
      (J_fuel_wing_volume_geometric_max__fuselage_avg_diameter wing_span
      wing_thickness_to_chord_root wing_thickness_to_chord_tip fuselage_avg_diameter
      wing_volume_no_fold strut_y) fuselage_avg_diameter ∧
    HasDerivAt (fun t => out_fuel_wing_volume_geometric_max wing_span wing_thickness_to_chord_root
      wing_thickness_to_chord_tip fuselage_avg_diameter t strut_y)
      (J_fuel_wing_volume_geometric_max__wing_volume_no_fold wing_span
      wing_thickness_to_chord_root wing_thickness_to_chord_tip fuselage_avg_diameter strut_y)
      wing_volume_no_fold ∧
    HasDerivAt (fun t => out_fuel_wing_volume_geometric_max wing_span wing_thickness_to_chord_root
      wing_thickness_to_chord_tip fuselage_avg_diameter wing_volume_no_fold t)
      (J_fuel_wing_volume_geometric_max__strut_y wing_span wing_thickness_to_chord_root
      wing_thickness_to_chord_tip fuselage_avg_diameter wing_volume_no_fold strut_y) strut_y :=
  ⟨d_fuel_wing_volume_geometric_max__wing_span _ _ _ _ _ _ h0 h1 h2 h3,
    d_fuel_wing_volume_geometric_max__wing_thickness_to_chord_root _ _ _ _ _ _ h0 h1 h2 h3,
    d_fuel_wing_volume_geometric_max__wing_thickness_to_chord_tip _ _ _ _ _ _ h0 h1 h2 h3,
    d_fuel_wing_volume_geometric_max__fuselage_avg_diameter _ _ _ _ _ _ h0 h1 h2 h3,
    d_fuel_wing_volume_geometric_max__wing_volume_no_fold _ _ _ _ _ _ h0 h1 h2 h3,
    d_fuel_wing_volume_geometric_max__strut_y _ _ _ _ _ _ h0 h1 h2 h3⟩

example : ∃ wing_span wing_thickness_to_chord_root wing_thickness_to_chord_tip
      fuselage_avg_diameter wing_volume_no_fold strut_y : ℝ,
      0 < wing_span ∧
      0 < wing_thickness_to_chord_root ∧
      0 < wing_thickness_to_chord_tip ∧
      wing_span - fuselage_avg_diameter ≠ 0 :=
  ⟨1, 1, 1, 0, 0, 0, by comp_example, by comp_example, by comp_example, by comp_example⟩

end Verif.Comp.GeometryGaspBasedWing.BWBWingFoldVolume_no_wingchoosefoldlocation

namespace Verif.Comp.GeometryGaspBasedWing.BWBWingVolume_winghasfold_no_smooth
open Real

/-- aviary/subsystems/geometry/gasp_based/wing.py:564 -/
noncomputable abbrev wid_grx (landinggear_main_gear_location : ℝ) : ℝ :=
  if 0 < landinggear_main_gear_location then 6 else 0

/-- aviary/subsystems/geometry/gasp_based/wing.py:569 -/
noncomputable abbrev ctip (wing_taper_ratio wing_center_chord : ℝ) : ℝ :=
  wing_taper_ratio * wing_center_chord

/-- aviary/subsystems/geometry/gasp_based/wing.py:570 -/
noncomputable abbrev tcf (landinggear_main_gear_location wing_thickness_to_chord_root wing_thickness_to_chord_tip fuselage_avg_diameter wing_span : ℝ) : ℝ :=
  wing_thickness_to_chord_root - (((2 * (((1 / 2) * fuselage_avg_diameter) + (wid_grx
    landinggear_main_gear_location))) * (wing_thickness_to_chord_root -
    wing_thickness_to_chord_tip)) / wing_span)

/-- aviary/subsystems/geometry/gasp_based/wing.py:574 -/
noncomputable abbrev cfuel (wing_taper_ratio landinggear_main_gear_location fuselage_avg_diameter wing_span wing_center_chord : ℝ) : ℝ :=
  wing_center_chord + (((2 * (((1 / 2) * fuselage_avg_diameter) + (wid_grx
    landinggear_main_gear_location))) * ((ctip wing_taper_ratio wing_center_chord) -
    wing_center_chord)) / wing_span)

/-- aviary/subsystems/geometry/gasp_based/wing.py:580 -/
noncomputable abbrev sw_nfx (wing_taper_ratio landinggear_main_gear_location fuselage_avg_diameter wing_span wing_center_chord : ℝ) : ℝ :=
  (((1 / 2) * wing_span) - (((1 / 2) * fuselage_avg_diameter) + (wid_grx
    landinggear_main_gear_location))) * ((cfuel wing_taper_ratio landinggear_main_gear_location
    fuselage_avg_diameter wing_span wing_center_chord) + (ctip wing_taper_ratio
    wing_center_chord))

/-- aviary/subsystems/geometry/gasp_based/wing.py:584 -/
noncomputable abbrev slm_nfx (wing_taper_ratio landinggear_main_gear_location fuselage_avg_diameter wing_span wing_center_chord : ℝ) : ℝ :=
  (ctip wing_taper_ratio wing_center_chord) / (cfuel wing_taper_ratio
    landinggear_main_gear_location fuselage_avg_diameter wing_span wing_center_chord)

/-- aviary/subsystems/geometry/gasp_based/wing.py:585 -/
noncomputable abbrev ar_nfx (wing_taper_ratio landinggear_main_gear_location fuselage_avg_diameter wing_span wing_center_chord : ℝ) : ℝ :=
  (((wing_span - fuselage_avg_diameter) - (2 * (wid_grx landinggear_main_gear_location))) ^ 2) /
    (sw_nfx wing_taper_ratio landinggear_main_gear_location fuselage_avg_diameter wing_span
    wing_center_chord)

/-- aviary/subsystems/geometry/gasp_based/wing.py:589 -/
noncomputable abbrev tcm (landinggear_main_gear_location wing_thickness_to_chord_root wing_thickness_to_chord_tip fuselage_avg_diameter wing_span : ℝ) : ℝ :=
  (1 / 2) * ((tcf landinggear_main_gear_location wing_thickness_to_chord_root
    wing_thickness_to_chord_tip fuselage_avg_diameter wing_span) + wing_thickness_to_chord_tip)

/-- aviary/subsystems/geometry/gasp_based/wing.py:592 -/
noncomputable abbrev numer (wing_taper_ratio landinggear_main_gear_location wing_thickness_to_chord_root wing_thickness_to_chord_tip fuselage_avg_diameter wing_span fuel_wing_fuel_fraction wing_center_chord : ℝ) : ℝ :=
  (((fuel_wing_fuel_fraction * (888889 / 1000000)) * (tcm landinggear_main_gear_location
    wing_thickness_to_chord_root wing_thickness_to_chord_tip fuselage_avg_diameter wing_span)) *
    ((sw_nfx wing_taper_ratio landinggear_main_gear_location fuselage_avg_diameter wing_span
    wing_center_chord) ^ ((3 / 2) : ℝ))) * ((2 * (slm_nfx wing_taper_ratio
    landinggear_main_gear_location fuselage_avg_diameter wing_span wing_center_chord)) + 1)

/-- aviary/subsystems/geometry/gasp_based/wing.py:593 -/
noncomputable abbrev denom (wing_taper_ratio landinggear_main_gear_location fuselage_avg_diameter wing_span wing_center_chord : ℝ) : ℝ :=
  ((ar_nfx wing_taper_ratio landinggear_main_gear_location fuselage_avg_diameter wing_span
    wing_center_chord) ^ ((1 / 2) : ℝ)) * (((slm_nfx wing_taper_ratio
    landinggear_main_gear_location fuselage_avg_diameter wing_span wing_center_chord) + 1) ^ 2)

/-- aviary/subsystems/geometry/gasp_based/wing.py:594 -/
noncomputable abbrev fvolw_geom (wing_taper_ratio landinggear_main_gear_location wing_thickness_to_chord_root wing_thickness_to_chord_tip fuselage_avg_diameter wing_span fuel_wing_fuel_fraction wing_center_chord : ℝ) : ℝ :=
  (numer wing_taper_ratio landinggear_main_gear_location wing_thickness_to_chord_root
    wing_thickness_to_chord_tip fuselage_avg_diameter wing_span fuel_wing_fuel_fraction
    wing_center_chord) / (denom wing_taper_ratio landinggear_main_gear_location
    fuselage_avg_diameter wing_span wing_center_chord)

/-- aviary/subsystems/geometry/gasp_based/wing.py:627 -/
noncomputable abbrev dtcf_dloc_main_gear (wing_thickness_to_chord_root wing_thickness_to_chord_tip wing_span : ℝ) : ℝ :=
  (0 * (wing_thickness_to_chord_root - wing_thickness_to_chord_tip)) / wing_span

/-- aviary/subsystems/geometry/gasp_based/wing.py:632 -/
noncomputable abbrev dtcf_dtc_ratio_root (landinggear_main_gear_location fuselage_avg_diameter wing_span : ℝ) : ℝ :=
  1 - ((2 * (((1 / 2) * fuselage_avg_diameter) + (wid_grx landinggear_main_gear_location))) /
    wing_span)

/-- aviary/subsystems/geometry/gasp_based/wing.py:633 -/
noncomputable abbrev dtcf_dtc_ratio_tip (landinggear_main_gear_location fuselage_avg_diameter wing_span : ℝ) : ℝ :=
  (2 * (((1 / 2) * fuselage_avg_diameter) + (wid_grx landinggear_main_gear_location))) /
    wing_span

/-- aviary/subsystems/geometry/gasp_based/wing.py:634 -/
noncomputable abbrev dtcf_dswf (wing_thickness_to_chord_root wing_thickness_to_chord_tip wing_span : ℝ) : ℝ :=
  (-(wing_thickness_to_chord_root - wing_thickness_to_chord_tip)) / wing_span

/-- aviary/subsystems/geometry/gasp_based/wing.py:635 -/
noncomputable abbrev dtcf_dwingspan (landinggear_main_gear_location wing_thickness_to_chord_root wing_thickness_to_chord_tip fuselage_avg_diameter wing_span : ℝ) : ℝ :=
  ((2 * (((1 / 2) * fuselage_avg_diameter) + (wid_grx landinggear_main_gear_location))) *
    (wing_thickness_to_chord_root - wing_thickness_to_chord_tip)) / (wing_span ^ 2)

/-- aviary/subsystems/geometry/gasp_based/wing.py:639 -/
noncomputable abbrev cfuel_2 (wing_taper_ratio landinggear_main_gear_location fuselage_avg_diameter wing_span wing_center_chord : ℝ) : ℝ :=
  wing_center_chord + ((((2 * (((1 / 2) * fuselage_avg_diameter) + (wid_grx
    landinggear_main_gear_location))) * (wing_taper_ratio - 1)) * wing_center_chord) /
    wing_span)

/-- aviary/subsystems/geometry/gasp_based/wing.py:643 -/
noncomputable abbrev dcfuel_dcenter_chord_wing (wing_taper_ratio landinggear_main_gear_location fuselage_avg_diameter wing_span : ℝ) : ℝ :=
  1 + (((2 * (((1 / 2) * fuselage_avg_diameter) + (wid_grx landinggear_main_gear_location))) *
    (wing_taper_ratio - 1)) / wing_span)

/-- aviary/subsystems/geometry/gasp_based/wing.py:646 -/
noncomputable abbrev dcfuel_dswf (wing_taper_ratio wing_span wing_center_chord : ℝ) : ℝ :=
  ((wing_taper_ratio - 1) * wing_center_chord) / wing_span

/-- aviary/subsystems/geometry/gasp_based/wing.py:647 -/
noncomputable abbrev dcfuel_dloc_main_gear (wing_taper_ratio wing_span : ℝ) : ℝ :=
  (0 * (wing_taper_ratio - 1)) / wing_span

/-- aviary/subsystems/geometry/gasp_based/wing.py:648 -/
noncomputable abbrev dcfuel_dtaper_ratio (landinggear_main_gear_location fuselage_avg_diameter wing_span wing_center_chord : ℝ) : ℝ :=
  ((2 * (((1 / 2) * fuselage_avg_diameter) + (wid_grx landinggear_main_gear_location))) *
    wing_center_chord) / wing_span

/-- aviary/subsystems/geometry/gasp_based/wing.py:649 -/
noncomputable abbrev dcfuel_dwingspan (wing_taper_ratio landinggear_main_gear_location fuselage_avg_diameter wing_span wing_center_chord : ℝ) : ℝ :=
  ((((-2) * (((1 / 2) * fuselage_avg_diameter) + (wid_grx landinggear_main_gear_location))) *
    (wing_taper_ratio - 1)) * wing_center_chord) / (wing_span ^ 2)

/-- aviary/subsystems/geometry/gasp_based/wing.py:657 -/
noncomputable abbrev sw_nfx_2 (wing_taper_ratio landinggear_main_gear_location fuselage_avg_diameter wing_span wing_center_chord : ℝ) : ℝ :=
  (((1 / 2) * wing_span) - (((1 / 2) * fuselage_avg_diameter) + (wid_grx
    landinggear_main_gear_location))) * ((cfuel_2 wing_taper_ratio
    landinggear_main_gear_location fuselage_avg_diameter wing_span wing_center_chord) +
    (wing_taper_ratio * wing_center_chord))

/-- aviary/subsystems/geometry/gasp_based/wing.py:660 -/
noncomputable abbrev dsw_nfx_dcenter_chord_wing (wing_taper_ratio landinggear_main_gear_location fuselage_avg_diameter wing_span : ℝ) : ℝ :=
  (((1 / 2) * wing_span) - (((1 / 2) * fuselage_avg_diameter) + (wid_grx
    landinggear_main_gear_location))) * ((dcfuel_dcenter_chord_wing wing_taper_ratio
    landinggear_main_gear_location fuselage_avg_diameter wing_span) + wing_taper_ratio)

/-- aviary/subsystems/geometry/gasp_based/wing.py:663 -/
noncomputable abbrev dsw_nfx_dswf (wing_taper_ratio landinggear_main_gear_location fuselage_avg_diameter wing_span wing_center_chord : ℝ) : ℝ :=
  ((-(1 / 2)) * ((cfuel_2 wing_taper_ratio landinggear_main_gear_location fuselage_avg_diameter
    wing_span wing_center_chord) + (wing_taper_ratio * wing_center_chord))) + ((((1 / 2) *
    wing_span) - (((1 / 2) * fuselage_avg_diameter) + (wid_grx landinggear_main_gear_location)))
    * (dcfuel_dswf wing_taper_ratio wing_span wing_center_chord))

/-- aviary/subsystems/geometry/gasp_based/wing.py:667 -/
noncomputable abbrev dsw_nfx_dloc_main_gear (wing_taper_ratio landinggear_main_gear_location fuselage_avg_diameter wing_span wing_center_chord : ℝ) : ℝ :=
  0 * ((cfuel_2 wing_taper_ratio landinggear_main_gear_location fuselage_avg_diameter wing_span
    wing_center_chord) + (wing_taper_ratio * wing_center_chord))

/-- aviary/subsystems/geometry/gasp_based/wing.py:668 -/
noncomputable abbrev dsw_nfx_dtaper_ratio (landinggear_main_gear_location fuselage_avg_diameter wing_span wing_center_chord : ℝ) : ℝ :=
  (((1 / 2) * wing_span) - (((1 / 2) * fuselage_avg_diameter) + (wid_grx
    landinggear_main_gear_location))) * ((dcfuel_dtaper_ratio landinggear_main_gear_location
    fuselage_avg_diameter wing_span wing_center_chord) + wing_center_chord)

/-- aviary/subsystems/geometry/gasp_based/wing.py:671 -/
noncomputable abbrev dsw_nfx_dwingspan (wing_taper_ratio landinggear_main_gear_location fuselage_avg_diameter wing_span wing_center_chord : ℝ) : ℝ :=
  ((1 / 2) * ((cfuel_2 wing_taper_ratio landinggear_main_gear_location fuselage_avg_diameter
    wing_span wing_center_chord) + (wing_taper_ratio * wing_center_chord))) + ((((1 / 2) *
    wing_span) - (((1 / 2) * fuselage_avg_diameter) + (wid_grx landinggear_main_gear_location)))
    * (dcfuel_dwingspan wing_taper_ratio landinggear_main_gear_location fuselage_avg_diameter
    wing_span wing_center_chord))

/-- aviary/subsystems/geometry/gasp_based/wing.py:676 -/
noncomputable abbrev slm_nfx_2 (wing_taper_ratio landinggear_main_gear_location fuselage_avg_diameter wing_span wing_center_chord : ℝ) : ℝ :=
  (wing_taper_ratio * wing_center_chord) / (cfuel_2 wing_taper_ratio
    landinggear_main_gear_location fuselage_avg_diameter wing_span wing_center_chord)

/-- aviary/subsystems/geometry/gasp_based/wing.py:677 -/
noncomputable abbrev dtaper_ratio_nfx_dtaper_ratio (wing_taper_ratio landinggear_main_gear_location fuselage_avg_diameter wing_span wing_center_chord : ℝ) : ℝ :=
  (wing_center_chord / (cfuel_2 wing_taper_ratio landinggear_main_gear_location
    fuselage_avg_diameter wing_span wing_center_chord)) - (((wing_taper_ratio *
    wing_center_chord) * (dcfuel_dtaper_ratio landinggear_main_gear_location
    fuselage_avg_diameter wing_span wing_center_chord)) / ((cfuel_2 wing_taper_ratio
    landinggear_main_gear_location fuselage_avg_diameter wing_span wing_center_chord) ^ 2))

/-- aviary/subsystems/geometry/gasp_based/wing.py:680 -/
noncomputable abbrev dtaper_ratio_nfx_dcenter_chord_wing (wing_taper_ratio landinggear_main_gear_location fuselage_avg_diameter wing_span wing_center_chord : ℝ) : ℝ :=
  (wing_taper_ratio / (cfuel_2 wing_taper_ratio landinggear_main_gear_location
    fuselage_avg_diameter wing_span wing_center_chord)) - (((wing_taper_ratio *
    wing_center_chord) * (dcfuel_dcenter_chord_wing wing_taper_ratio
    landinggear_main_gear_location fuselage_avg_diameter wing_span)) / ((cfuel_2
    wing_taper_ratio landinggear_main_gear_location fuselage_avg_diameter wing_span
    wing_center_chord) ^ 2))

/-- aviary/subsystems/geometry/gasp_based/wing.py:683 -/
noncomputable abbrev dtaper_ratio_nfx_dswf (wing_taper_ratio landinggear_main_gear_location fuselage_avg_diameter wing_span wing_center_chord : ℝ) : ℝ :=
  (((-wing_taper_ratio) * wing_center_chord) * (dcfuel_dswf wing_taper_ratio wing_span
    wing_center_chord)) / ((cfuel_2 wing_taper_ratio landinggear_main_gear_location
    fuselage_avg_diameter wing_span wing_center_chord) ^ 2)

/-- aviary/subsystems/geometry/gasp_based/wing.py:684 -/
noncomputable abbrev dtaper_ratio_nfx_dloc_main_gear (wing_taper_ratio landinggear_main_gear_location fuselage_avg_diameter wing_span wing_center_chord : ℝ) : ℝ :=
  (((-wing_taper_ratio) * wing_center_chord) * (dcfuel_dloc_main_gear wing_taper_ratio
    wing_span)) / ((cfuel_2 wing_taper_ratio landinggear_main_gear_location
    fuselage_avg_diameter wing_span wing_center_chord) ^ 2)

/-- aviary/subsystems/geometry/gasp_based/wing.py:687 -/
noncomputable abbrev dtaper_ratio_nfx_dwingspan (wing_taper_ratio landinggear_main_gear_location fuselage_avg_diameter wing_span wing_center_chord : ℝ) : ℝ :=
  (((-wing_taper_ratio) * wing_center_chord) * (dcfuel_dwingspan wing_taper_ratio
    landinggear_main_gear_location fuselage_avg_diameter wing_span wing_center_chord)) /
    ((cfuel_2 wing_taper_ratio landinggear_main_gear_location fuselage_avg_diameter wing_span
    wing_center_chord) ^ 2)

/-- aviary/subsystems/geometry/gasp_based/wing.py:689 -/
noncomputable abbrev ar_nfx_2 (wing_taper_ratio landinggear_main_gear_location fuselage_avg_diameter wing_span wing_center_chord : ℝ) : ℝ :=
  (((wing_span - fuselage_avg_diameter) - (2 * (wid_grx landinggear_main_gear_location))) ^ 2) /
    (sw_nfx_2 wing_taper_ratio landinggear_main_gear_location fuselage_avg_diameter wing_span
    wing_center_chord)

/-- aviary/subsystems/geometry/gasp_based/wing.py:690 -/
noncomputable abbrev dar_nfx_dtaper_ratio (wing_taper_ratio landinggear_main_gear_location fuselage_avg_diameter wing_span wing_center_chord : ℝ) : ℝ :=
  ((-(((wing_span - fuselage_avg_diameter) - (2 * (wid_grx landinggear_main_gear_location))) ^
    2)) * (dsw_nfx_dtaper_ratio landinggear_main_gear_location fuselage_avg_diameter wing_span
    wing_center_chord)) / ((sw_nfx_2 wing_taper_ratio landinggear_main_gear_location
    fuselage_avg_diameter wing_span wing_center_chord) ^ 2)

/-- aviary/subsystems/geometry/gasp_based/wing.py:693 -/
noncomputable abbrev dar_nfx_dcenter_chord_wing (wing_taper_ratio landinggear_main_gear_location fuselage_avg_diameter wing_span wing_center_chord : ℝ) : ℝ :=
  ((-(((wing_span - fuselage_avg_diameter) - (2 * (wid_grx landinggear_main_gear_location))) ^
    2)) * (dsw_nfx_dcenter_chord_wing wing_taper_ratio landinggear_main_gear_location
    fuselage_avg_diameter wing_span)) / ((sw_nfx_2 wing_taper_ratio
    landinggear_main_gear_location fuselage_avg_diameter wing_span wing_center_chord) ^ 2)

/-- aviary/subsystems/geometry/gasp_based/wing.py:698 -/
noncomputable abbrev dar_nfx_dswf (wing_taper_ratio landinggear_main_gear_location fuselage_avg_diameter wing_span wing_center_chord : ℝ) : ℝ :=
  (((-2) * ((wing_span - fuselage_avg_diameter) - (2 * (wid_grx
    landinggear_main_gear_location)))) / (sw_nfx_2 wing_taper_ratio
    landinggear_main_gear_location fuselage_avg_diameter wing_span wing_center_chord)) -
    (((((wing_span - fuselage_avg_diameter) - (2 * (wid_grx landinggear_main_gear_location))) ^
    2) * (dsw_nfx_dswf wing_taper_ratio landinggear_main_gear_location fuselage_avg_diameter
    wing_span wing_center_chord)) / ((sw_nfx_2 wing_taper_ratio landinggear_main_gear_location
    fuselage_avg_diameter wing_span wing_center_chord) ^ 2))

/-- aviary/subsystems/geometry/gasp_based/wing.py:702 -/
noncomputable abbrev dar_nfx_dloc_main_gear (wing_taper_ratio landinggear_main_gear_location fuselage_avg_diameter wing_span wing_center_chord : ℝ) : ℝ :=
  ((-(((wing_span - fuselage_avg_diameter) - (2 * (wid_grx landinggear_main_gear_location))) ^
    2)) * (dsw_nfx_dloc_main_gear wing_taper_ratio landinggear_main_gear_location
    fuselage_avg_diameter wing_span wing_center_chord)) / ((sw_nfx_2 wing_taper_ratio
    landinggear_main_gear_location fuselage_avg_diameter wing_span wing_center_chord) ^ 2)

/-- aviary/subsystems/geometry/gasp_based/wing.py:705 -/
noncomputable abbrev dar_nfx_dwingspan (wing_taper_ratio landinggear_main_gear_location fuselage_avg_diameter wing_span wing_center_chord : ℝ) : ℝ :=
  ((2 * ((wing_span - fuselage_avg_diameter) - (2 * (wid_grx landinggear_main_gear_location))))
    / (sw_nfx_2 wing_taper_ratio landinggear_main_gear_location fuselage_avg_diameter wing_span
    wing_center_chord)) - (((((wing_span - fuselage_avg_diameter) - (2 * (wid_grx
    landinggear_main_gear_location))) ^ 2) * (dsw_nfx_dwingspan wing_taper_ratio
    landinggear_main_gear_location fuselage_avg_diameter wing_span wing_center_chord)) /
    ((sw_nfx_2 wing_taper_ratio landinggear_main_gear_location fuselage_avg_diameter wing_span
    wing_center_chord) ^ 2))

/-- aviary/subsystems/geometry/gasp_based/wing.py:711 -/
noncomputable abbrev dtcm_dloc_main_gear (wing_thickness_to_chord_root wing_thickness_to_chord_tip wing_span : ℝ) : ℝ :=
  (1 / 2) * (dtcf_dloc_main_gear wing_thickness_to_chord_root wing_thickness_to_chord_tip
    wing_span)

/-- aviary/subsystems/geometry/gasp_based/wing.py:714 -/
noncomputable abbrev dtcm_dtc_ratio_root (landinggear_main_gear_location fuselage_avg_diameter wing_span : ℝ) : ℝ :=
  (1 / 2) * (dtcf_dtc_ratio_root landinggear_main_gear_location fuselage_avg_diameter wing_span)

/-- aviary/subsystems/geometry/gasp_based/wing.py:715 -/
noncomputable abbrev dtcm_dtc_ratio_tip (landinggear_main_gear_location fuselage_avg_diameter wing_span : ℝ) : ℝ :=
  ((1 / 2) * (dtcf_dtc_ratio_tip landinggear_main_gear_location fuselage_avg_diameter
    wing_span)) + (1 / 2)

/-- aviary/subsystems/geometry/gasp_based/wing.py:716 -/
noncomputable abbrev dtcm_dswf (wing_thickness_to_chord_root wing_thickness_to_chord_tip wing_span : ℝ) : ℝ :=
  (1 / 2) * (dtcf_dswf wing_thickness_to_chord_root wing_thickness_to_chord_tip wing_span)

/-- aviary/subsystems/geometry/gasp_based/wing.py:717 -/
noncomputable abbrev dtcm_dwingspan (landinggear_main_gear_location wing_thickness_to_chord_root wing_thickness_to_chord_tip fuselage_avg_diameter wing_span : ℝ) : ℝ :=
  (1 / 2) * (dtcf_dwingspan landinggear_main_gear_location wing_thickness_to_chord_root
    wing_thickness_to_chord_tip fuselage_avg_diameter wing_span)

/-- aviary/subsystems/geometry/gasp_based/wing.py:719 -/
noncomputable abbrev numer_2 (wing_taper_ratio landinggear_main_gear_location wing_thickness_to_chord_root wing_thickness_to_chord_tip fuselage_avg_diameter wing_span fuel_wing_fuel_fraction wing_center_chord : ℝ) : ℝ :=
  (((fuel_wing_fuel_fraction * (888889 / 1000000)) * (tcm landinggear_main_gear_location
    wing_thickness_to_chord_root wing_thickness_to_chord_tip fuselage_avg_diameter wing_span)) *
    ((sw_nfx_2 wing_taper_ratio landinggear_main_gear_location fuselage_avg_diameter wing_span
    wing_center_chord) ^ ((3 / 2) : ℝ))) * ((2 * (slm_nfx_2 wing_taper_ratio
    landinggear_main_gear_location fuselage_avg_diameter wing_span wing_center_chord)) + 1)

/-- aviary/subsystems/geometry/gasp_based/wing.py:720 -/
noncomputable abbrev dnumer_dfuel_vol_frac (wing_taper_ratio landinggear_main_gear_location wing_thickness_to_chord_root wing_thickness_to_chord_tip fuselage_avg_diameter wing_span wing_center_chord : ℝ) : ℝ :=
  (((888889 / 1000000) * (tcm landinggear_main_gear_location wing_thickness_to_chord_root
    wing_thickness_to_chord_tip fuselage_avg_diameter wing_span)) * ((sw_nfx_2 wing_taper_ratio
    landinggear_main_gear_location fuselage_avg_diameter wing_span wing_center_chord) ^ ((3 / 2)
    : ℝ))) * ((2 * (slm_nfx_2 wing_taper_ratio landinggear_main_gear_location
    fuselage_avg_diameter wing_span wing_center_chord)) + 1)

/-- aviary/subsystems/geometry/gasp_based/wing.py:721 -/
noncomputable abbrev dnumer_dloc_main_gear (wing_taper_ratio landinggear_main_gear_location wing_thickness_to_chord_root wing_thickness_to_chord_tip fuselage_avg_diameter wing_span fuel_wing_fuel_fraction wing_center_chord : ℝ) : ℝ :=
  (((((fuel_wing_fuel_fraction * (888889 / 1000000)) * (dtcm_dloc_main_gear
    wing_thickness_to_chord_root wing_thickness_to_chord_tip wing_span)) * ((sw_nfx_2
    wing_taper_ratio landinggear_main_gear_location fuselage_avg_diameter wing_span
    wing_center_chord) ^ ((3 / 2) : ℝ))) * ((2 * (slm_nfx_2 wing_taper_ratio
    landinggear_main_gear_location fuselage_avg_diameter wing_span wing_center_chord)) + 1)) +
    ((((((fuel_wing_fuel_fraction * (888889 / 1000000)) * (tcm landinggear_main_gear_location
    wing_thickness_to_chord_root wing_thickness_to_chord_tip fuselage_avg_diameter wing_span)) *
    (3 / 2)) * (dsw_nfx_dloc_main_gear wing_taper_ratio landinggear_main_gear_location
    fuselage_avg_diameter wing_span wing_center_chord)) * ((sw_nfx_2 wing_taper_ratio
    landinggear_main_gear_location fuselage_avg_diameter wing_span wing_center_chord) ^ ((1 / 2)
    : ℝ))) * ((2 * (slm_nfx_2 wing_taper_ratio landinggear_main_gear_location
    fuselage_avg_diameter wing_span wing_center_chord)) + 1))) + ((((fuel_wing_fuel_fraction *
    (888889 / 1000000)) * (tcm landinggear_main_gear_location wing_thickness_to_chord_root
    wing_thickness_to_chord_tip fuselage_avg_diameter wing_span)) * ((sw_nfx_2 wing_taper_ratio
    landinggear_main_gear_location fuselage_avg_diameter wing_span wing_center_chord) ^ ((3 / 2)
    : ℝ))) * (2 * (dtaper_ratio_nfx_dloc_main_gear wing_taper_ratio
    landinggear_main_gear_location fuselage_avg_diameter wing_span wing_center_chord)))

/-- aviary/subsystems/geometry/gasp_based/wing.py:732 -/
noncomputable abbrev dnumer_dtaper_ratio (wing_taper_ratio landinggear_main_gear_location wing_thickness_to_chord_root wing_thickness_to_chord_tip fuselage_avg_diameter wing_span fuel_wing_fuel_fraction wing_center_chord : ℝ) : ℝ :=
  (((((fuel_wing_fuel_fraction * (888889 / 1000000)) * 0) * ((sw_nfx_2 wing_taper_ratio
    landinggear_main_gear_location fuselage_avg_diameter wing_span wing_center_chord) ^ ((3 / 2)
    : ℝ))) * ((2 * (slm_nfx_2 wing_taper_ratio landinggear_main_gear_location
    fuselage_avg_diameter wing_span wing_center_chord)) + 1)) + ((((((fuel_wing_fuel_fraction *
    (888889 / 1000000)) * (tcm landinggear_main_gear_location wing_thickness_to_chord_root
    wing_thickness_to_chord_tip fuselage_avg_diameter wing_span)) * (3 / 2)) *
    (dsw_nfx_dtaper_ratio landinggear_main_gear_location fuselage_avg_diameter wing_span
    wing_center_chord)) * ((sw_nfx_2 wing_taper_ratio landinggear_main_gear_location
    fuselage_avg_diameter wing_span wing_center_chord) ^ ((1 / 2) : ℝ))) * ((2 * (slm_nfx_2
    wing_taper_ratio landinggear_main_gear_location fuselage_avg_diameter wing_span
    wing_center_chord)) + 1))) + ((((fuel_wing_fuel_fraction * (888889 / 1000000)) * (tcm
    landinggear_main_gear_location wing_thickness_to_chord_root wing_thickness_to_chord_tip
    fuselage_avg_diameter wing_span)) * ((sw_nfx_2 wing_taper_ratio
    landinggear_main_gear_location fuselage_avg_diameter wing_span wing_center_chord) ^ ((3 / 2)
    : ℝ))) * (2 * (dtaper_ratio_nfx_dtaper_ratio wing_taper_ratio landinggear_main_gear_location
    fuselage_avg_diameter wing_span wing_center_chord)))

/-- aviary/subsystems/geometry/gasp_based/wing.py:743 -/
noncomputable abbrev dnumer_dcenter_chord_wing (wing_taper_ratio landinggear_main_gear_location wing_thickness_to_chord_root wing_thickness_to_chord_tip fuselage_avg_diameter wing_span fuel_wing_fuel_fraction wing_center_chord : ℝ) : ℝ :=
  (((((fuel_wing_fuel_fraction * (888889 / 1000000)) * 0) * ((sw_nfx_2 wing_taper_ratio
    landinggear_main_gear_location fuselage_avg_diameter wing_span wing_center_chord) ^ ((3 / 2)
    : ℝ))) * ((2 * (slm_nfx_2 wing_taper_ratio landinggear_main_gear_location
    fuselage_avg_diameter wing_span wing_center_chord)) + 1)) + ((((((fuel_wing_fuel_fraction *
    (888889 / 1000000)) * (tcm landinggear_main_gear_location wing_thickness_to_chord_root
    wing_thickness_to_chord_tip fuselage_avg_diameter wing_span)) * (3 / 2)) *
    (dsw_nfx_dcenter_chord_wing wing_taper_ratio landinggear_main_gear_location
    fuselage_avg_diameter wing_span)) * ((sw_nfx_2 wing_taper_ratio
    landinggear_main_gear_location fuselage_avg_diameter wing_span wing_center_chord) ^ ((1 / 2)
    : ℝ))) * ((2 * (slm_nfx_2 wing_taper_ratio landinggear_main_gear_location
    fuselage_avg_diameter wing_span wing_center_chord)) + 1))) + ((((fuel_wing_fuel_fraction *
    (888889 / 1000000)) * (tcm landinggear_main_gear_location wing_thickness_to_chord_root
    wing_thickness_to_chord_tip fuselage_avg_diameter wing_span)) * ((sw_nfx_2 wing_taper_ratio
    landinggear_main_gear_location fuselage_avg_diameter wing_span wing_center_chord) ^ ((3 / 2)
    : ℝ))) * (2 * (dtaper_ratio_nfx_dcenter_chord_wing wing_taper_ratio
    landinggear_main_gear_location fuselage_avg_diameter wing_span wing_center_chord)))

/-- aviary/subsystems/geometry/gasp_based/wing.py:758 -/
noncomputable abbrev dnumer_dtc_ratio_root (wing_taper_ratio landinggear_main_gear_location fuselage_avg_diameter wing_span fuel_wing_fuel_fraction wing_center_chord : ℝ) : ℝ :=
  (((fuel_wing_fuel_fraction * (888889 / 1000000)) * (dtcm_dtc_ratio_root
    landinggear_main_gear_location fuselage_avg_diameter wing_span)) * ((sw_nfx_2
    wing_taper_ratio landinggear_main_gear_location fuselage_avg_diameter wing_span
    wing_center_chord) ^ ((3 / 2) : ℝ))) * ((2 * (slm_nfx_2 wing_taper_ratio
    landinggear_main_gear_location fuselage_avg_diameter wing_span wing_center_chord)) + 1)

/-- aviary/subsystems/geometry/gasp_based/wing.py:761 -/
noncomputable abbrev dnumer_dtc_ratio_tip (wing_taper_ratio landinggear_main_gear_location fuselage_avg_diameter wing_span fuel_wing_fuel_fraction wing_center_chord : ℝ) : ℝ :=
  (((fuel_wing_fuel_fraction * (888889 / 1000000)) * (dtcm_dtc_ratio_tip
    landinggear_main_gear_location fuselage_avg_diameter wing_span)) * ((sw_nfx_2
    wing_taper_ratio landinggear_main_gear_location fuselage_avg_diameter wing_span
    wing_center_chord) ^ ((3 / 2) : ℝ))) * ((2 * (slm_nfx_2 wing_taper_ratio
    landinggear_main_gear_location fuselage_avg_diameter wing_span wing_center_chord)) + 1)

/-- aviary/subsystems/geometry/gasp_based/wing.py:764 -/
noncomputable abbrev dnumer_dswf (wing_taper_ratio landinggear_main_gear_location wing_thickness_to_chord_root wing_thickness_to_chord_tip fuselage_avg_diameter wing_span fuel_wing_fuel_fraction wing_center_chord : ℝ) : ℝ :=
  (((((fuel_wing_fuel_fraction * (888889 / 1000000)) * (dtcm_dswf wing_thickness_to_chord_root
    wing_thickness_to_chord_tip wing_span)) * ((sw_nfx_2 wing_taper_ratio
    landinggear_main_gear_location fuselage_avg_diameter wing_span wing_center_chord) ^ ((3 / 2)
    : ℝ))) * ((2 * (slm_nfx_2 wing_taper_ratio landinggear_main_gear_location
    fuselage_avg_diameter wing_span wing_center_chord)) + 1)) + ((((((fuel_wing_fuel_fraction *
    (888889 / 1000000)) * (tcm landinggear_main_gear_location wing_thickness_to_chord_root
    wing_thickness_to_chord_tip fuselage_avg_diameter wing_span)) * (3 / 2)) * (dsw_nfx_dswf
    wing_taper_ratio landinggear_main_gear_location fuselage_avg_diameter wing_span
    wing_center_chord)) * ((sw_nfx_2 wing_taper_ratio landinggear_main_gear_location
    fuselage_avg_diameter wing_span wing_center_chord) ^ ((1 / 2) : ℝ))) * ((2 * (slm_nfx_2
    wing_taper_ratio landinggear_main_gear_location fuselage_avg_diameter wing_span
    wing_center_chord)) + 1))) + ((((fuel_wing_fuel_fraction * (888889 / 1000000)) * (tcm
    landinggear_main_gear_location wing_thickness_to_chord_root wing_thickness_to_chord_tip
    fuselage_avg_diameter wing_span)) * ((sw_nfx_2 wing_taper_ratio
    landinggear_main_gear_location fuselage_avg_diameter wing_span wing_center_chord) ^ ((3 / 2)
    : ℝ))) * (2 * (dtaper_ratio_nfx_dswf wing_taper_ratio landinggear_main_gear_location
    fuselage_avg_diameter wing_span wing_center_chord)))

/-- aviary/subsystems/geometry/gasp_based/wing.py:775 -/
noncomputable abbrev dnumer_dwingspan (wing_taper_ratio landinggear_main_gear_location wing_thickness_to_chord_root wing_thickness_to_chord_tip fuselage_avg_diameter wing_span fuel_wing_fuel_fraction wing_center_chord : ℝ) : ℝ :=
  (((((fuel_wing_fuel_fraction * (888889 / 1000000)) * (dtcm_dwingspan
    landinggear_main_gear_location wing_thickness_to_chord_root wing_thickness_to_chord_tip
    fuselage_avg_diameter wing_span)) * ((sw_nfx_2 wing_taper_ratio
    landinggear_main_gear_location fuselage_avg_diameter wing_span wing_center_chord) ^ ((3 / 2)
    : ℝ))) * ((2 * (slm_nfx_2 wing_taper_ratio landinggear_main_gear_location
    fuselage_avg_diameter wing_span wing_center_chord)) + 1)) + ((((((fuel_wing_fuel_fraction *
    (888889 / 1000000)) * (tcm landinggear_main_gear_location wing_thickness_to_chord_root
    wing_thickness_to_chord_tip fuselage_avg_diameter wing_span)) * (3 / 2)) *
    (dsw_nfx_dwingspan wing_taper_ratio landinggear_main_gear_location fuselage_avg_diameter
    wing_span wing_center_chord)) * ((sw_nfx_2 wing_taper_ratio landinggear_main_gear_location
    fuselage_avg_diameter wing_span wing_center_chord) ^ ((1 / 2) : ℝ))) * ((2 * (slm_nfx_2
    wing_taper_ratio landinggear_main_gear_location fuselage_avg_diameter wing_span
    wing_center_chord)) + 1))) + ((((fuel_wing_fuel_fraction * (888889 / 1000000)) * (tcm
    landinggear_main_gear_location wing_thickness_to_chord_root wing_thickness_to_chord_tip
    fuselage_avg_diameter wing_span)) * ((sw_nfx_2 wing_taper_ratio
    landinggear_main_gear_location fuselage_avg_diameter wing_span wing_center_chord) ^ ((3 / 2)
    : ℝ))) * (2 * (dtaper_ratio_nfx_dwingspan wing_taper_ratio landinggear_main_gear_location
    fuselage_avg_diameter wing_span wing_center_chord)))

/-- aviary/subsystems/geometry/gasp_based/wing.py:787 -/
noncomputable abbrev denom_2 (wing_taper_ratio landinggear_main_gear_location fuselage_avg_diameter wing_span wing_center_chord : ℝ) : ℝ :=
  ((ar_nfx_2 wing_taper_ratio landinggear_main_gear_location fuselage_avg_diameter wing_span
    wing_center_chord) ^ ((1 / 2) : ℝ)) * (((slm_nfx_2 wing_taper_ratio
    landinggear_main_gear_location fuselage_avg_diameter wing_span wing_center_chord) + 1) ^ 2)

/-- aviary/subsystems/geometry/gasp_based/wing.py:788 -/
noncomputable abbrev ddenom_dtaper_ratio (wing_taper_ratio landinggear_main_gear_location fuselage_avg_diameter wing_span wing_center_chord : ℝ) : ℝ :=
  ((((1 / 2) * (dar_nfx_dtaper_ratio wing_taper_ratio landinggear_main_gear_location
    fuselage_avg_diameter wing_span wing_center_chord)) / ((ar_nfx_2 wing_taper_ratio
    landinggear_main_gear_location fuselage_avg_diameter wing_span wing_center_chord) ^ ((1 / 2)
    : ℝ))) * (((slm_nfx_2 wing_taper_ratio landinggear_main_gear_location fuselage_avg_diameter
    wing_span wing_center_chord) + 1) ^ 2)) + (((2 * ((ar_nfx_2 wing_taper_ratio
    landinggear_main_gear_location fuselage_avg_diameter wing_span wing_center_chord) ^ ((1 / 2)
    : ℝ))) * (dtaper_ratio_nfx_dtaper_ratio wing_taper_ratio landinggear_main_gear_location
    fuselage_avg_diameter wing_span wing_center_chord)) * ((slm_nfx_2 wing_taper_ratio
    landinggear_main_gear_location fuselage_avg_diameter wing_span wing_center_chord) + 1))

/-- aviary/subsystems/geometry/gasp_based/wing.py:791 -/
noncomputable abbrev ddenom_dcenter_chord_wing (wing_taper_ratio landinggear_main_gear_location fuselage_avg_diameter wing_span wing_center_chord : ℝ) : ℝ :=
  ((((1 / 2) * (dar_nfx_dcenter_chord_wing wing_taper_ratio landinggear_main_gear_location
    fuselage_avg_diameter wing_span wing_center_chord)) / ((ar_nfx_2 wing_taper_ratio
    landinggear_main_gear_location fuselage_avg_diameter wing_span wing_center_chord) ^ ((1 / 2)
    : ℝ))) * (((slm_nfx_2 wing_taper_ratio landinggear_main_gear_location fuselage_avg_diameter
    wing_span wing_center_chord) + 1) ^ 2)) + (((2 * ((ar_nfx_2 wing_taper_ratio
    landinggear_main_gear_location fuselage_avg_diameter wing_span wing_center_chord) ^ ((1 / 2)
    : ℝ))) * (dtaper_ratio_nfx_dcenter_chord_wing wing_taper_ratio
    landinggear_main_gear_location fuselage_avg_diameter wing_span wing_center_chord)) *
    ((slm_nfx_2 wing_taper_ratio landinggear_main_gear_location fuselage_avg_diameter wing_span
    wing_center_chord) + 1))

/-- aviary/subsystems/geometry/gasp_based/wing.py:794 -/
noncomputable abbrev ddenom_dswf (wing_taper_ratio landinggear_main_gear_location fuselage_avg_diameter wing_span wing_center_chord : ℝ) : ℝ :=
  ((((1 / 2) * (dar_nfx_dswf wing_taper_ratio landinggear_main_gear_location
    fuselage_avg_diameter wing_span wing_center_chord)) / ((ar_nfx_2 wing_taper_ratio
    landinggear_main_gear_location fuselage_avg_diameter wing_span wing_center_chord) ^ ((1 / 2)
    : ℝ))) * (((slm_nfx_2 wing_taper_ratio landinggear_main_gear_location fuselage_avg_diameter
    wing_span wing_center_chord) + 1) ^ 2)) + (((2 * ((ar_nfx_2 wing_taper_ratio
    landinggear_main_gear_location fuselage_avg_diameter wing_span wing_center_chord) ^ ((1 / 2)
    : ℝ))) * (dtaper_ratio_nfx_dswf wing_taper_ratio landinggear_main_gear_location
    fuselage_avg_diameter wing_span wing_center_chord)) * ((slm_nfx_2 wing_taper_ratio
    landinggear_main_gear_location fuselage_avg_diameter wing_span wing_center_chord) + 1))

/-- aviary/subsystems/geometry/gasp_based/wing.py:797 -/
noncomputable abbrev ddenom_dloc_main_gear (wing_taper_ratio landinggear_main_gear_location fuselage_avg_diameter wing_span wing_center_chord : ℝ) : ℝ :=
  ((((1 / 2) * (dar_nfx_dloc_main_gear wing_taper_ratio landinggear_main_gear_location
    fuselage_avg_diameter wing_span wing_center_chord)) / ((ar_nfx_2 wing_taper_ratio
    landinggear_main_gear_location fuselage_avg_diameter wing_span wing_center_chord) ^ ((1 / 2)
    : ℝ))) * (((slm_nfx_2 wing_taper_ratio landinggear_main_gear_location fuselage_avg_diameter
    wing_span wing_center_chord) + 1) ^ 2)) + (((2 * ((ar_nfx_2 wing_taper_ratio
    landinggear_main_gear_location fuselage_avg_diameter wing_span wing_center_chord) ^ ((1 / 2)
    : ℝ))) * (dtaper_ratio_nfx_dloc_main_gear wing_taper_ratio landinggear_main_gear_location
    fuselage_avg_diameter wing_span wing_center_chord)) * ((slm_nfx_2 wing_taper_ratio
    landinggear_main_gear_location fuselage_avg_diameter wing_span wing_center_chord) + 1))

/-- aviary/subsystems/geometry/gasp_based/wing.py:800 -/
noncomputable abbrev ddenom_dwingspan (wing_taper_ratio landinggear_main_gear_location fuselage_avg_diameter wing_span wing_center_chord : ℝ) : ℝ :=
  ((((1 / 2) * (dar_nfx_dwingspan wing_taper_ratio landinggear_main_gear_location
    fuselage_avg_diameter wing_span wing_center_chord)) / ((ar_nfx_2 wing_taper_ratio
    landinggear_main_gear_location fuselage_avg_diameter wing_span wing_center_chord) ^ ((1 / 2)
    : ℝ))) * (((slm_nfx_2 wing_taper_ratio landinggear_main_gear_location fuselage_avg_diameter
    wing_span wing_center_chord) + 1) ^ 2)) + (((2 * ((ar_nfx_2 wing_taper_ratio
    landinggear_main_gear_location fuselage_avg_diameter wing_span wing_center_chord) ^ ((1 / 2)
    : ℝ))) * (dtaper_ratio_nfx_dwingspan wing_taper_ratio landinggear_main_gear_location
    fuselage_avg_diameter wing_span wing_center_chord)) * ((slm_nfx_2 wing_taper_ratio
    landinggear_main_gear_location fuselage_avg_diameter wing_span wing_center_chord) + 1))

/-- aviary/subsystems/geometry/gasp_based/wing.py:808 -/
noncomputable abbrev dfvolw_geom_dfuel_vol_frac (wing_taper_ratio landinggear_main_gear_location wing_thickness_to_chord_root wing_thickness_to_chord_tip fuselage_avg_diameter wing_span fuel_wing_fuel_fraction wing_center_chord : ℝ) : ℝ :=
  (((dnumer_dfuel_vol_frac wing_taper_ratio landinggear_main_gear_location
    wing_thickness_to_chord_root wing_thickness_to_chord_tip fuselage_avg_diameter wing_span
    wing_center_chord) * (denom_2 wing_taper_ratio landinggear_main_gear_location
    fuselage_avg_diameter wing_span wing_center_chord)) - ((numer_2 wing_taper_ratio
    landinggear_main_gear_location wing_thickness_to_chord_root wing_thickness_to_chord_tip
    fuselage_avg_diameter wing_span fuel_wing_fuel_fraction wing_center_chord) * 0)) / ((denom_2
    wing_taper_ratio landinggear_main_gear_location fuselage_avg_diameter wing_span
    wing_center_chord) ^ 2)

/-- aviary/subsystems/geometry/gasp_based/wing.py:811 -/
noncomputable abbrev dfvolw_geom_dtc_ratio_root (wing_taper_ratio landinggear_main_gear_location wing_thickness_to_chord_root wing_thickness_to_chord_tip fuselage_avg_diameter wing_span fuel_wing_fuel_fraction wing_center_chord : ℝ) : ℝ :=
  (((dnumer_dtc_ratio_root wing_taper_ratio landinggear_main_gear_location fuselage_avg_diameter
    wing_span fuel_wing_fuel_fraction wing_center_chord) * (denom_2 wing_taper_ratio
    landinggear_main_gear_location fuselage_avg_diameter wing_span wing_center_chord)) -
    ((numer_2 wing_taper_ratio landinggear_main_gear_location wing_thickness_to_chord_root
    wing_thickness_to_chord_tip fuselage_avg_diameter wing_span fuel_wing_fuel_fraction
    wing_center_chord) * 0)) / ((denom_2 wing_taper_ratio landinggear_main_gear_location
    fuselage_avg_diameter wing_span wing_center_chord) ^ 2)

/-- aviary/subsystems/geometry/gasp_based/wing.py:814 -/
noncomputable abbrev dfvolw_geom_dtc_ratio_tip (wing_taper_ratio landinggear_main_gear_location wing_thickness_to_chord_root wing_thickness_to_chord_tip fuselage_avg_diameter wing_span fuel_wing_fuel_fraction wing_center_chord : ℝ) : ℝ :=
  (((dnumer_dtc_ratio_tip wing_taper_ratio landinggear_main_gear_location fuselage_avg_diameter
    wing_span fuel_wing_fuel_fraction wing_center_chord) * (denom_2 wing_taper_ratio
    landinggear_main_gear_location fuselage_avg_diameter wing_span wing_center_chord)) -
    ((numer_2 wing_taper_ratio landinggear_main_gear_location wing_thickness_to_chord_root
    wing_thickness_to_chord_tip fuselage_avg_diameter wing_span fuel_wing_fuel_fraction
    wing_center_chord) * 0)) / ((denom_2 wing_taper_ratio landinggear_main_gear_location
    fuselage_avg_diameter wing_span wing_center_chord) ^ 2)

/-- aviary/subsystems/geometry/gasp_based/wing.py:817 -/
noncomputable abbrev dfvolw_geom_dloc_main_gear (wing_taper_ratio landinggear_main_gear_location wing_thickness_to_chord_root wing_thickness_to_chord_tip fuselage_avg_diameter wing_span fuel_wing_fuel_fraction wing_center_chord : ℝ) : ℝ :=
  (((dnumer_dloc_main_gear wing_taper_ratio landinggear_main_gear_location
    wing_thickness_to_chord_root wing_thickness_to_chord_tip fuselage_avg_diameter wing_span
    fuel_wing_fuel_fraction wing_center_chord) * (denom_2 wing_taper_ratio
    landinggear_main_gear_location fuselage_avg_diameter wing_span wing_center_chord)) -
    ((numer_2 wing_taper_ratio landinggear_main_gear_location wing_thickness_to_chord_root
    wing_thickness_to_chord_tip fuselage_avg_diameter wing_span fuel_wing_fuel_fraction
    wing_center_chord) * (ddenom_dloc_main_gear wing_taper_ratio landinggear_main_gear_location
    fuselage_avg_diameter wing_span wing_center_chord))) / ((denom_2 wing_taper_ratio
    landinggear_main_gear_location fuselage_avg_diameter wing_span wing_center_chord) ^ 2)

/-- aviary/subsystems/geometry/gasp_based/wing.py:820 -/
noncomputable abbrev dfvolw_geom_dtaper_ratio (wing_taper_ratio landinggear_main_gear_location wing_thickness_to_chord_root wing_thickness_to_chord_tip fuselage_avg_diameter wing_span fuel_wing_fuel_fraction wing_center_chord : ℝ) : ℝ :=
  (((dnumer_dtaper_ratio wing_taper_ratio landinggear_main_gear_location
    wing_thickness_to_chord_root wing_thickness_to_chord_tip fuselage_avg_diameter wing_span
    fuel_wing_fuel_fraction wing_center_chord) * (denom_2 wing_taper_ratio
    landinggear_main_gear_location fuselage_avg_diameter wing_span wing_center_chord)) -
    ((numer_2 wing_taper_ratio landinggear_main_gear_location wing_thickness_to_chord_root
    wing_thickness_to_chord_tip fuselage_avg_diameter wing_span fuel_wing_fuel_fraction
    wing_center_chord) * (ddenom_dtaper_ratio wing_taper_ratio landinggear_main_gear_location
    fuselage_avg_diameter wing_span wing_center_chord))) / ((denom_2 wing_taper_ratio
    landinggear_main_gear_location fuselage_avg_diameter wing_span wing_center_chord) ^ 2)

/-- aviary/subsystems/geometry/gasp_based/wing.py:823 -/
noncomputable abbrev dfvolw_geom_dcenter_chord_wing (wing_taper_ratio landinggear_main_gear_location wing_thickness_to_chord_root wing_thickness_to_chord_tip fuselage_avg_diameter wing_span fuel_wing_fuel_fraction wing_center_chord : ℝ) : ℝ :=
  (((dnumer_dcenter_chord_wing wing_taper_ratio landinggear_main_gear_location
    wing_thickness_to_chord_root wing_thickness_to_chord_tip fuselage_avg_diameter wing_span
    fuel_wing_fuel_fraction wing_center_chord) * (denom_2 wing_taper_ratio
    landinggear_main_gear_location fuselage_avg_diameter wing_span wing_center_chord)) -
    ((numer_2 wing_taper_ratio landinggear_main_gear_location wing_thickness_to_chord_root
    wing_thickness_to_chord_tip fuselage_avg_diameter wing_span fuel_wing_fuel_fraction
    wing_center_chord) * (ddenom_dcenter_chord_wing wing_taper_ratio
    landinggear_main_gear_location fuselage_avg_diameter wing_span wing_center_chord))) /
    ((denom_2 wing_taper_ratio landinggear_main_gear_location fuselage_avg_diameter wing_span
    wing_center_chord) ^ 2)

/-- aviary/subsystems/geometry/gasp_based/wing.py:826 -/
noncomputable abbrev dfvolw_geom_dswf (wing_taper_ratio landinggear_main_gear_location wing_thickness_to_chord_root wing_thickness_to_chord_tip fuselage_avg_diameter wing_span fuel_wing_fuel_fraction wing_center_chord : ℝ) : ℝ :=
  (((dnumer_dswf wing_taper_ratio landinggear_main_gear_location wing_thickness_to_chord_root
    wing_thickness_to_chord_tip fuselage_avg_diameter wing_span fuel_wing_fuel_fraction
    wing_center_chord) * (denom_2 wing_taper_ratio landinggear_main_gear_location
    fuselage_avg_diameter wing_span wing_center_chord)) - ((numer_2 wing_taper_ratio
    landinggear_main_gear_location wing_thickness_to_chord_root wing_thickness_to_chord_tip
    fuselage_avg_diameter wing_span fuel_wing_fuel_fraction wing_center_chord) * (ddenom_dswf
    wing_taper_ratio landinggear_main_gear_location fuselage_avg_diameter wing_span
    wing_center_chord))) / ((denom_2 wing_taper_ratio landinggear_main_gear_location
    fuselage_avg_diameter wing_span wing_center_chord) ^ 2)

/-- aviary/subsystems/geometry/gasp_based/wing.py:827 -/
noncomputable abbrev dfvolw_geom_dwingspan (wing_taper_ratio landinggear_main_gear_location wing_thickness_to_chord_root wing_thickness_to_chord_tip fuselage_avg_diameter wing_span fuel_wing_fuel_fraction wing_center_chord : ℝ) : ℝ :=
  (((dnumer_dwingspan wing_taper_ratio landinggear_main_gear_location
    wing_thickness_to_chord_root wing_thickness_to_chord_tip fuselage_avg_diameter wing_span
    fuel_wing_fuel_fraction wing_center_chord) * (denom_2 wing_taper_ratio
    landinggear_main_gear_location fuselage_avg_diameter wing_span wing_center_chord)) -
    ((numer_2 wing_taper_ratio landinggear_main_gear_location wing_thickness_to_chord_root
    wing_thickness_to_chord_tip fuselage_avg_diameter wing_span fuel_wing_fuel_fraction
    wing_center_chord) * (ddenom_dwingspan wing_taper_ratio landinggear_main_gear_location
    fuselage_avg_diameter wing_span wing_center_chord))) / ((denom_2 wing_taper_ratio
    landinggear_main_gear_location fuselage_avg_diameter wing_span wing_center_chord) ^ 2)

/-- Output `wing_volume_no_fold` of `BWBWingVolume.compute`, aviary/subsystems/geometry/gasp_based/wing.py:596 -/
noncomputable def out_wing_volume_no_fold (wing_taper_ratio landinggear_main_gear_location wing_thickness_to_chord_root wing_thickness_to_chord_tip fuselage_avg_diameter wing_span fuel_wing_fuel_fraction wing_center_chord : ℝ) : ℝ :=
  fvolw_geom wing_taper_ratio landinggear_main_gear_location wing_thickness_to_chord_root
    wing_thickness_to_chord_tip fuselage_avg_diameter wing_span fuel_wing_fuel_fraction
    wing_center_chord

/-- Partial of `wing_volume_no_fold` with respect to `fuel_wing_fuel_fraction` as set by `BWBWingVolume`, aviary/subsystems/geometry/gasp_based/wing.py:830 -/
noncomputable def J_wing_volume_no_fold__fuel_wing_fuel_fraction (wing_taper_ratio landinggear_main_gear_location wing_thickness_to_chord_root wing_thickness_to_chord_tip fuselage_avg_diameter wing_span fuel_wing_fuel_fraction wing_center_chord : ℝ) : ℝ :=
  dfvolw_geom_dfuel_vol_frac wing_taper_ratio landinggear_main_gear_location
    wing_thickness_to_chord_root wing_thickness_to_chord_tip fuselage_avg_diameter wing_span
    fuel_wing_fuel_fraction wing_center_chord

/-- Partial of `wing_volume_no_fold` with respect to `landinggear_main_gear_location` as set by `BWBWingVolume`, aviary/subsystems/geometry/gasp_based/wing.py:831 -/
noncomputable def J_wing_volume_no_fold__landinggear_main_gear_location (wing_taper_ratio landinggear_main_gear_location wing_thickness_to_chord_root wing_thickness_to_chord_tip fuselage_avg_diameter wing_span fuel_wing_fuel_fraction wing_center_chord : ℝ) : ℝ :=
  dfvolw_geom_dloc_main_gear wing_taper_ratio landinggear_main_gear_location
    wing_thickness_to_chord_root wing_thickness_to_chord_tip fuselage_avg_diameter wing_span
    fuel_wing_fuel_fraction wing_center_chord

/-- Partial of `wing_volume_no_fold` with respect to `wing_taper_ratio` as set by `BWBWingVolume`, aviary/subsystems/geometry/gasp_based/wing.py:834 -/
noncomputable def J_wing_volume_no_fold__wing_taper_ratio (wing_taper_ratio landinggear_main_gear_location wing_thickness_to_chord_root wing_thickness_to_chord_tip fuselage_avg_diameter wing_span fuel_wing_fuel_fraction wing_center_chord : ℝ) : ℝ :=
  dfvolw_geom_dtaper_ratio wing_taper_ratio landinggear_main_gear_location
    wing_thickness_to_chord_root wing_thickness_to_chord_tip fuselage_avg_diameter wing_span
    fuel_wing_fuel_fraction wing_center_chord

/-- Partial of `wing_volume_no_fold` with respect to `wing_center_chord` as set by `BWBWingVolume`, aviary/subsystems/geometry/gasp_based/wing.py:835 -/
noncomputable def J_wing_volume_no_fold__wing_center_chord (wing_taper_ratio landinggear_main_gear_location wing_thickness_to_chord_root wing_thickness_to_chord_tip fuselage_avg_diameter wing_span fuel_wing_fuel_fraction wing_center_chord : ℝ) : ℝ :=
  dfvolw_geom_dcenter_chord_wing wing_taper_ratio landinggear_main_gear_location
    wing_thickness_to_chord_root wing_thickness_to_chord_tip fuselage_avg_diameter wing_span
    fuel_wing_fuel_fraction wing_center_chord

/-- Partial of `wing_volume_no_fold` with respect to `wing_thickness_to_chord_root` as set by `BWBWingVolume`, aviary/subsystems/geometry/gasp_based/wing.py:836 -/
noncomputable def J_wing_volume_no_fold__wing_thickness_to_chord_root (wing_taper_ratio landinggear_main_gear_location wing_thickness_to_chord_root wing_thickness_to_chord_tip fuselage_avg_diameter wing_span fuel_wing_fuel_fraction wing_center_chord : ℝ) : ℝ :=
  dfvolw_geom_dtc_ratio_root wing_taper_ratio landinggear_main_gear_location
    wing_thickness_to_chord_root wing_thickness_to_chord_tip fuselage_avg_diameter wing_span
    fuel_wing_fuel_fraction wing_center_chord

/-- Partial of `wing_volume_no_fold` with respect to `wing_thickness_to_chord_tip` as set by `BWBWingVolume`, aviary/subsystems/geometry/gasp_based/wing.py:839 -/
noncomputable def J_wing_volume_no_fold__wing_thickness_to_chord_tip (wing_taper_ratio landinggear_main_gear_location wing_thickness_to_chord_root wing_thickness_to_chord_tip fuselage_avg_diameter wing_span fuel_wing_fuel_fraction wing_center_chord : ℝ) : ℝ :=
  dfvolw_geom_dtc_ratio_tip wing_taper_ratio landinggear_main_gear_location
    wing_thickness_to_chord_root wing_thickness_to_chord_tip fuselage_avg_diameter wing_span
    fuel_wing_fuel_fraction wing_center_chord

/-- Partial of `wing_volume_no_fold` with respect to `fuselage_avg_diameter` as set by `BWBWingVolume`, aviary/subsystems/geometry/gasp_based/wing.py:842 -/
noncomputable def J_wing_volume_no_fold__fuselage_avg_diameter (wing_taper_ratio landinggear_main_gear_location wing_thickness_to_chord_root wing_thickness_to_chord_tip fuselage_avg_diameter wing_span fuel_wing_fuel_fraction wing_center_chord : ℝ) : ℝ :=
  dfvolw_geom_dswf wing_taper_ratio landinggear_main_gear_location wing_thickness_to_chord_root
    wing_thickness_to_chord_tip fuselage_avg_diameter wing_span fuel_wing_fuel_fraction
    wing_center_chord

/-- Partial of `wing_volume_no_fold` with respect to `wing_span` as set by `BWBWingVolume`, aviary/subsystems/geometry/gasp_based/wing.py:843 -/
noncomputable def J_wing_volume_no_fold__wing_span (wing_taper_ratio landinggear_main_gear_location wing_thickness_to_chord_root wing_thickness_to_chord_tip fuselage_avg_diameter wing_span fuel_wing_fuel_fraction wing_center_chord : ℝ) : ℝ :=
  dfvolw_geom_dwingspan wing_taper_ratio landinggear_main_gear_location
    wing_thickness_to_chord_root wing_thickness_to_chord_tip fuselage_avg_diameter wing_span
    fuel_wing_fuel_fraction wing_center_chord

theorem d_wing_volume_no_fold__landinggear_main_gear_location (wing_taper_ratio
    landinggear_main_gear_location wing_thickness_to_chord_root wing_thickness_to_chord_tip
    fuselage_avg_diameter wing_span fuel_wing_fuel_fraction wing_center_chord : ℝ) (h0 :
    landinggear_main_gear_location ≠ 0) (h1 : 0 < wing_span) (h2 : 0 < ((1 / 2) * wing_span) -
    (((1 / 2) * fuselage_avg_diameter) + (if 0 < landinggear_main_gear_location then 6 else 0)))
    (h3 : 0 < (wing_center_chord + (((2 * (((1 / 2) * fuselage_avg_diameter) + (if 0 <
    landinggear_main_gear_location then 6 else 0))) * ((wing_taper_ratio * wing_center_chord) -
    wing_center_chord)) / wing_span)) + (wing_taper_ratio * wing_center_chord)) (h4 :
    wing_center_chord + (((2 * (((1 / 2) * fuselage_avg_diameter) + (if 0 <
    landinggear_main_gear_location then 6 else 0))) * ((wing_taper_ratio * wing_center_chord) -
    wing_center_chord)) / wing_span) ≠ 0) (h5 : ((1 / 2) * wing_span) - (((1 / 2) *
    fuselage_avg_diameter) + (if 0 < landinggear_main_gear_location then 6 else 0)) ≠ 0) (h6 :
    (wing_center_chord + (((2 * (((1 / 2) * fuselage_avg_diameter) + (if 0 <
    landinggear_main_gear_location then 6 else 0))) * ((wing_taper_ratio * wing_center_chord) -
    wing_center_chord)) / wing_span)) + (wing_taper_ratio * wing_center_chord) ≠ 0) (h7 :
    (wing_span - fuselage_avg_diameter) - (2 * (if 0 < landinggear_main_gear_location then 6 else
    0)) ≠ 0) (h8 : 0 < wing_taper_ratio) (h9 : 0 < wing_center_chord) (h10 : 0 < wing_center_chord
    + (((2 * (((1 / 2) * fuselage_avg_diameter) + (if 0 < landinggear_main_gear_location then 6
    else 0))) * ((wing_taper_ratio * wing_center_chord) - wing_center_chord)) / wing_span)) (h11 :
    0 < (wing_center_chord + ((((2 * (((1 / 2) * fuselage_avg_diameter) + (if 0 <
    landinggear_main_gear_location then 6 else 0))) * (wing_taper_ratio - 1)) * wing_center_chord)
    / wing_span)) + (wing_taper_ratio * wing_center_chord)) (h12 : wing_center_chord + ((((2 *
    (((1 / 2) * fuselage_avg_diameter) + (if 0 < landinggear_main_gear_location then 6 else 0))) *
    (wing_taper_ratio - 1)) * wing_center_chord) / wing_span) ≠ 0) (h13 : (wing_center_chord +
    ((((2 * (((1 / 2) * fuselage_avg_diameter) + (if 0 < landinggear_main_gear_location then 6
    else 0))) * (wing_taper_ratio - 1)) * wing_center_chord) / wing_span)) + (wing_taper_ratio *
    wing_center_chord) ≠ 0) (h14 : 0 < wing_center_chord + ((((2 * (((1 / 2) *
    fuselage_avg_diameter) + (if 0 < landinggear_main_gear_location then 6 else 0))) *
    (wing_taper_ratio - 1)) * wing_center_chord) / wing_span)) :
    HasDerivAt (fun t => out_wing_volume_no_fold wing_taper_ratio t wing_thickness_to_chord_root wing_thickness_to_chord_tip fuselage_avg_diameter wing_span fuel_wing_fuel_fraction wing_center_chord) (J_wing_volume_no_fold__landinggear_main_gear_location wing_taper_ratio landinggear_main_gear_location wing_thickness_to_chord_root wing_thickness_to_chord_tip fuselage_avg_diameter wing_span fuel_wing_fuel_fraction wing_center_chord) landinggear_main_gear_location := by
  have e0 : ∀ x : ℝ, 0 < x → x ^ ((3 / 2) : ℝ) = x ^ ((1 / 2) : ℝ) * x ^ 1 := fun x hx => rpow_up hx 1 (by norm_num)
  simp only [out_wing_volume_no_fold, J_wing_volume_no_fold__landinggear_main_gear_location, dfvolw_geom_dloc_main_gear, ddenom_dloc_main_gear, dar_nfx_dloc_main_gear, numer_2, denom_2, ar_nfx_2, dnumer_dloc_main_gear, dtaper_ratio_nfx_dloc_main_gear, dcfuel_dloc_main_gear, dsw_nfx_dloc_main_gear, slm_nfx_2, sw_nfx_2, cfuel_2, dtcm_dloc_main_gear, dtcf_dloc_main_gear, fvolw_geom, denom, ar_nfx, numer, slm_nfx, sw_nfx, cfuel, ctip, tcm, tcf, wid_grx]
  try split_ifs
  all_goals (apply hasDerivAt_of_eq; on_goal 1 => (repeat' comp_step))
  all_goals try comp_side
  all_goals try simp (disch := first | assumption | positivity) only [e0, div_mul_eq_div_div, div_half, inv_half]
  all_goals try split_ifs
  all_goals try (exfalso; linarith)
  all_goals try simp only [mul_zero, zero_mul, add_zero, zero_add, sub_zero, zero_sub, mul_one, one_mul]
  all_goals try push_cast
  all_goals comp_eq

theorem d_wing_volume_no_fold__wing_thickness_to_chord_root (wing_taper_ratio
    landinggear_main_gear_location wing_thickness_to_chord_root wing_thickness_to_chord_tip
    fuselage_avg_diameter wing_span fuel_wing_fuel_fraction wing_center_chord : ℝ) (h0 : 0 <
    wing_span) (h1 : 0 < ((1 / 2) * wing_span) - (((1 / 2) * fuselage_avg_diameter) + (if 0 <
    landinggear_main_gear_location then 6 else 0))) (h2 : 0 < (wing_center_chord + (((2 * (((1 /
    2) * fuselage_avg_diameter) + (if 0 < landinggear_main_gear_location then 6 else 0))) *
    ((wing_taper_ratio * wing_center_chord) - wing_center_chord)) / wing_span)) +
    (wing_taper_ratio * wing_center_chord)) (h3 : wing_center_chord + (((2 * (((1 / 2) *
    fuselage_avg_diameter) + (if 0 < landinggear_main_gear_location then 6 else 0))) *
    ((wing_taper_ratio * wing_center_chord) - wing_center_chord)) / wing_span) ≠ 0) (h4 : ((1 / 2)
    * wing_span) - (((1 / 2) * fuselage_avg_diameter) + (if 0 < landinggear_main_gear_location
    then 6 else 0)) ≠ 0) (h5 : (wing_center_chord + (((2 * (((1 / 2) * fuselage_avg_diameter) +
    (if 0 < landinggear_main_gear_location then 6 else 0))) * ((wing_taper_ratio *
    wing_center_chord) - wing_center_chord)) / wing_span)) + (wing_taper_ratio *
    wing_center_chord) ≠ 0) (h6 : (wing_span - fuselage_avg_diameter) - (2 * (if 0 <
    landinggear_main_gear_location then 6 else 0)) ≠ 0) (h7 : 0 < wing_taper_ratio) (h8 : 0 <
    wing_center_chord) (h9 : 0 < wing_center_chord + (((2 * (((1 / 2) * fuselage_avg_diameter) +
    (if 0 < landinggear_main_gear_location then 6 else 0))) * ((wing_taper_ratio *
    wing_center_chord) - wing_center_chord)) / wing_span)) (h10 : 0 < (wing_center_chord + ((((2 *
    (((1 / 2) * fuselage_avg_diameter) + (if 0 < landinggear_main_gear_location then 6 else 0))) *
    (wing_taper_ratio - 1)) * wing_center_chord) / wing_span)) + (wing_taper_ratio *
    wing_center_chord)) (h11 : wing_center_chord + ((((2 * (((1 / 2) * fuselage_avg_diameter) +
    (if 0 < landinggear_main_gear_location then 6 else 0))) * (wing_taper_ratio - 1)) *
    wing_center_chord) / wing_span) ≠ 0) (h12 : (wing_center_chord + ((((2 * (((1 / 2) *
    fuselage_avg_diameter) + (if 0 < landinggear_main_gear_location then 6 else 0))) *
    (wing_taper_ratio - 1)) * wing_center_chord) / wing_span)) + (wing_taper_ratio *
    wing_center_chord) ≠ 0) (h13 : 0 < wing_center_chord + ((((2 * (((1 / 2) *
    fuselage_avg_diameter) + (if 0 < landinggear_main_gear_location then 6 else 0))) *
    (wing_taper_ratio - 1)) * wing_center_chord) / wing_span)) :
    HasDerivAt (fun t => out_wing_volume_no_fold wing_taper_ratio landinggear_main_gear_location t wing_thickness_to_chord_tip fuselage_avg_diameter wing_span fuel_wing_fuel_fraction wing_center_chord) (J_wing_volume_no_fold__wing_thickness_to_chord_root wing_taper_ratio landinggear_main_gear_location wing_thickness_to_chord_root wing_thickness_to_chord_tip fuselage_avg_diameter wing_span fuel_wing_fuel_fraction wing_center_chord) wing_thickness_to_chord_root := by
  have e0 : ∀ x : ℝ, 0 < x → x ^ ((3 / 2) : ℝ) = x ^ ((1 / 2) : ℝ) * x ^ 1 := fun x hx => rpow_up hx 1 (by norm_num)
  simp only [out_wing_volume_no_fold, J_wing_volume_no_fold__wing_thickness_to_chord_root, dfvolw_geom_dtc_ratio_root, numer_2, denom_2, ar_nfx_2, dnumer_dtc_ratio_root, slm_nfx_2, sw_nfx_2, cfuel_2, dtcm_dtc_ratio_root, dtcf_dtc_ratio_root, fvolw_geom, denom, ar_nfx, numer, slm_nfx, sw_nfx, cfuel, ctip, tcm, tcf, wid_grx]
  try split_ifs
  all_goals (apply hasDerivAt_of_eq; on_goal 1 => (repeat' comp_step))
  all_goals try comp_side
  all_goals try simp (disch := first | assumption | positivity) only [e0, div_mul_eq_div_div, div_half, inv_half]
  all_goals try split_ifs
  all_goals try (exfalso; linarith)
  all_goals try simp only [mul_zero, zero_mul, add_zero, zero_add, sub_zero, zero_sub, mul_one, one_mul]
  all_goals try push_cast
  all_goals comp_eq

theorem d_wing_volume_no_fold__wing_thickness_to_chord_tip (wing_taper_ratio
    landinggear_main_gear_location wing_thickness_to_chord_root wing_thickness_to_chord_tip
    fuselage_avg_diameter wing_span fuel_wing_fuel_fraction wing_center_chord : ℝ) (h0 : 0 <
    wing_span) (h1 : 0 < ((1 / 2) * wing_span) - (((1 / 2) * fuselage_avg_diameter) + (if 0 <
    landinggear_main_gear_location then 6 else 0))) (h2 : 0 < (wing_center_chord + (((2 * (((1 /
    2) * fuselage_avg_diameter) + (if 0 < landinggear_main_gear_location then 6 else 0))) *
    ((wing_taper_ratio * wing_center_chord) - wing_center_chord)) / wing_span)) +
    (wing_taper_ratio * wing_center_chord)) (h3 : wing_center_chord + (((2 * (((1 / 2) *
    fuselage_avg_diameter) + (if 0 < landinggear_main_gear_location then 6 else 0))) *
    ((wing_taper_ratio * wing_center_chord) - wing_center_chord)) / wing_span) ≠ 0) (h4 : ((1 / 2)
    * wing_span) - (((1 / 2) * fuselage_avg_diameter) + (if 0 < landinggear_main_gear_location
    then 6 else 0)) ≠ 0) (h5 : (wing_center_chord + (((2 * (((1 / 2) * fuselage_avg_diameter) +
    (if 0 < landinggear_main_gear_location then 6 else 0))) * ((wing_taper_ratio *
    wing_center_chord) - wing_center_chord)) / wing_span)) + (wing_taper_ratio *
    wing_center_chord) ≠ 0) (h6 : (wing_span - fuselage_avg_diameter) - (2 * (if 0 <
    landinggear_main_gear_location then 6 else 0)) ≠ 0) (h7 : 0 < wing_taper_ratio) (h8 : 0 <
    wing_center_chord) (h9 : 0 < wing_center_chord + (((2 * (((1 / 2) * fuselage_avg_diameter) +
    (if 0 < landinggear_main_gear_location then 6 else 0))) * ((wing_taper_ratio *
    wing_center_chord) - wing_center_chord)) / wing_span)) (h10 : 0 < (wing_center_chord + ((((2 *
    (((1 / 2) * fuselage_avg_diameter) + (if 0 < landinggear_main_gear_location then 6 else 0))) *
    (wing_taper_ratio - 1)) * wing_center_chord) / wing_span)) + (wing_taper_ratio *
    wing_center_chord)) (h11 : wing_center_chord + ((((2 * (((1 / 2) * fuselage_avg_diameter) +
    (if 0 < landinggear_main_gear_location then 6 else 0))) * (wing_taper_ratio - 1)) *
    wing_center_chord) / wing_span) ≠ 0) (h12 : (wing_center_chord + ((((2 * (((1 / 2) *
    fuselage_avg_diameter) + (if 0 < landinggear_main_gear_location then 6 else 0))) *
    (wing_taper_ratio - 1)) * wing_center_chord) / wing_span)) + (wing_taper_ratio *
    wing_center_chord) ≠ 0) (h13 : 0 < wing_center_chord + ((((2 * (((1 / 2) *
    fuselage_avg_diameter) + (if 0 < landinggear_main_gear_location then 6 else 0))) *
    (wing_taper_ratio - 1)) * wing_center_chord) / wing_span)) :
    HasDerivAt (fun t => out_wing_volume_no_fold wing_taper_ratio landinggear_main_gear_location wing_thickness_to_chord_root t fuselage_avg_diameter wing_span fuel_wing_fuel_fraction wing_center_chord) (J_wing_volume_no_fold__wing_thickness_to_chord_tip wing_taper_ratio landinggear_main_gear_location wing_thickness_to_chord_root wing_thickness_to_chord_tip fuselage_avg_diameter wing_span fuel_wing_fuel_fraction wing_center_chord) wing_thickness_to_chord_tip := by
  have e0 : ∀ x : ℝ, 0 < x → x ^ ((3 / 2) : ℝ) = x ^ ((1 / 2) : ℝ) * x ^ 1 := fun x hx => rpow_up hx 1 (by norm_num)
  simp only [out_wing_volume_no_fold, J_wing_volume_no_fold__wing_thickness_to_chord_tip, dfvolw_geom_dtc_ratio_tip, numer_2, denom_2, ar_nfx_2, dnumer_dtc_ratio_tip, slm_nfx_2, sw_nfx_2, cfuel_2, dtcm_dtc_ratio_tip, dtcf_dtc_ratio_tip, fvolw_geom, denom, ar_nfx, numer, slm_nfx, sw_nfx, cfuel, ctip, tcm, tcf, wid_grx]
  try split_ifs
  all_goals (apply hasDerivAt_of_eq; on_goal 1 => (repeat' comp_step))
  all_goals try comp_side
  all_goals try simp (disch := first | assumption | positivity) only [e0, div_mul_eq_div_div, div_half, inv_half]
  all_goals try split_ifs
  all_goals try (exfalso; linarith)
  all_goals try simp only [mul_zero, zero_mul, add_zero, zero_add, sub_zero, zero_sub, mul_one, one_mul]
  all_goals try push_cast
  all_goals comp_eq

theorem d_wing_volume_no_fold__fuel_wing_fuel_fraction (wing_taper_ratio
    landinggear_main_gear_location wing_thickness_to_chord_root wing_thickness_to_chord_tip
    fuselage_avg_diameter wing_span fuel_wing_fuel_fraction wing_center_chord : ℝ) (h0 : 0 <
    wing_span) (h1 : 0 < ((1 / 2) * wing_span) - (((1 / 2) * fuselage_avg_diameter) + (if 0 <
    landinggear_main_gear_location then 6 else 0))) (h2 : 0 < (wing_center_chord + (((2 * (((1 /
    2) * fuselage_avg_diameter) + (if 0 < landinggear_main_gear_location then 6 else 0))) *
    ((wing_taper_ratio * wing_center_chord) - wing_center_chord)) / wing_span)) +
    (wing_taper_ratio * wing_center_chord)) (h3 : wing_center_chord + (((2 * (((1 / 2) *
    fuselage_avg_diameter) + (if 0 < landinggear_main_gear_location then 6 else 0))) *
    ((wing_taper_ratio * wing_center_chord) - wing_center_chord)) / wing_span) ≠ 0) (h4 : ((1 / 2)
    * wing_span) - (((1 / 2) * fuselage_avg_diameter) + (if 0 < landinggear_main_gear_location
    then 6 else 0)) ≠ 0) (h5 : (wing_center_chord + (((2 * (((1 / 2) * fuselage_avg_diameter) +
    (if 0 < landinggear_main_gear_location then 6 else 0))) * ((wing_taper_ratio *
    wing_center_chord) - wing_center_chord)) / wing_span)) + (wing_taper_ratio *
    wing_center_chord) ≠ 0) (h6 : (wing_span - fuselage_avg_diameter) - (2 * (if 0 <
    landinggear_main_gear_location then 6 else 0)) ≠ 0) (h7 : 0 < wing_taper_ratio) (h8 : 0 <
    wing_center_chord) (h9 : 0 < wing_center_chord + (((2 * (((1 / 2) * fuselage_avg_diameter) +
    (if 0 < landinggear_main_gear_location then 6 else 0))) * ((wing_taper_ratio *
    wing_center_chord) - wing_center_chord)) / wing_span)) (h10 : 0 < (wing_center_chord + ((((2 *
    (((1 / 2) * fuselage_avg_diameter) + (if 0 < landinggear_main_gear_location then 6 else 0))) *
    (wing_taper_ratio - 1)) * wing_center_chord) / wing_span)) + (wing_taper_ratio *
    wing_center_chord)) (h11 : wing_center_chord + ((((2 * (((1 / 2) * fuselage_avg_diameter) +
    (if 0 < landinggear_main_gear_location then 6 else 0))) * (wing_taper_ratio - 1)) *
    wing_center_chord) / wing_span) ≠ 0) (h12 : (wing_center_chord + ((((2 * (((1 / 2) *
    fuselage_avg_diameter) + (if 0 < landinggear_main_gear_location then 6 else 0))) *
    (wing_taper_ratio - 1)) * wing_center_chord) / wing_span)) + (wing_taper_ratio *
    wing_center_chord) ≠ 0) (h13 : 0 < wing_center_chord + ((((2 * (((1 / 2) *
    fuselage_avg_diameter) + (if 0 < landinggear_main_gear_location then 6 else 0))) *
    (wing_taper_ratio - 1)) * wing_center_chord) / wing_span)) :
    HasDerivAt (fun t => out_wing_volume_no_fold wing_taper_ratio landinggear_main_gear_location wing_thickness_to_chord_root wing_thickness_to_chord_tip fuselage_avg_diameter wing_span t wing_center_chord) (J_wing_volume_no_fold__fuel_wing_fuel_fraction wing_taper_ratio landinggear_main_gear_location wing_thickness_to_chord_root wing_thickness_to_chord_tip fuselage_avg_diameter wing_span fuel_wing_fuel_fraction wing_center_chord) fuel_wing_fuel_fraction := by
  have e0 : ∀ x : ℝ, 0 < x → x ^ ((3 / 2) : ℝ) = x ^ ((1 / 2) : ℝ) * x ^ 1 := fun x hx => rpow_up hx 1 (by norm_num)
  simp only [out_wing_volume_no_fold, J_wing_volume_no_fold__fuel_wing_fuel_fraction, dfvolw_geom_dfuel_vol_frac, numer_2, denom_2, ar_nfx_2, dnumer_dfuel_vol_frac, slm_nfx_2, sw_nfx_2, cfuel_2, fvolw_geom, denom, ar_nfx, numer, slm_nfx, sw_nfx, cfuel, ctip, tcm, tcf, wid_grx]
  try split_ifs
  all_goals (apply hasDerivAt_of_eq; on_goal 1 => (repeat' comp_step))
  all_goals try comp_side
  all_goals try simp (disch := first | assumption | positivity) only [e0, div_mul_eq_div_div, div_half, inv_half]
  all_goals try split_ifs
  all_goals try (exfalso; linarith)
  all_goals try simp only [mul_zero, zero_mul, add_zero, zero_add, sub_zero, zero_sub, mul_one, one_mul]
  all_goals try push_cast
  all_goals comp_eq

/-- Partial derivatives of `BWBWingVolume` that are proved correct (the rest is listed in the header). -/
theorem partials_partial (wing_taper_ratio landinggear_main_gear_location
    wing_thickness_to_chord_root wing_thickness_to_chord_tip fuselage_avg_diameter wing_span
    fuel_wing_fuel_fraction wing_center_chord : ℝ) (h0 : landinggear_main_gear_location ≠ 0) (h1 :
    0 < wing_span) (h2 : 0 < ((1 / 2) * wing_span) - (((1 / 2) * fuselage_avg_diameter) + (if 0 <
    landinggear_main_gear_location then 6 else 0))) (h3 : 0 < (wing_center_chord + (((2 * (((1 /
    2) * fuselage_avg_diameter) + (if 0 < landinggear_main_gear_location then 6 else 0))) *
    ((wing_taper_ratio * wing_center_chord) - wing_center_chord)) / wing_span)) +
    (wing_taper_ratio * wing_center_chord)) (h4 : wing_center_chord + (((2 * (((1 / 2) *
    fuselage_avg_diameter) + (if 0 < landinggear_main_gear_location then 6 else 0))) *
    ((wing_taper_ratio * wing_center_chord) - wing_center_chord)) / wing_span) ≠ 0) (h5 : ((1 / 2)
    * wing_span) - (((1 / 2) * fuselage_avg_diameter) + (if 0 < landinggear_main_gear_location
    then 6 else 0)) ≠ 0) (h6 : (wing_center_chord + (((2 * (((1 / 2) * fuselage_avg_diameter) +
    (if 0 < landinggear_main_gear_location then 6 else 0))) * ((wing_taper_ratio *
    wing_center_chord) - wing_center_chord)) / wing_span)) + (wing_taper_ratio *
    wing_center_chord) ≠ 0) (h7 : (wing_span - fuselage_avg_diameter) - (2 * (if 0 <
    landinggear_main_gear_location then 6 else 0)) ≠ 0) (h8 : 0 < wing_taper_ratio) (h9 : 0 <
    wing_center_chord) (h10 : 0 < wing_center_chord + (((2 * (((1 / 2) * fuselage_avg_diameter) +
    (if 0 < landinggear_main_gear_location then 6 else 0))) * ((wing_taper_ratio *
    wing_center_chord) - wing_center_chord)) / wing_span)) (h11 : 0 < (wing_center_chord + ((((2 *
    (((1 / 2) * fuselage_avg_diameter) + (if 0 < landinggear_main_gear_location then 6 else 0))) *
    (wing_taper_ratio - 1)) * wing_center_chord) / wing_span)) + (wing_taper_ratio *
    wing_center_chord)) (h12 : wing_center_chord + ((((2 * (((1 / 2) * fuselage_avg_diameter) +
    (if 0 < landinggear_main_gear_location then 6 else 0))) * (wing_taper_ratio - 1)) *
    wing_center_chord) / wing_span) ≠ 0) (h13 : (wing_center_chord + ((((2 * (((1 / 2) *
    fuselage_avg_diameter) + (if 0 < landinggear_main_gear_location then 6 else 0))) *
    (wing_taper_ratio - 1)) * wing_center_chord) / wing_span)) + (wing_taper_ratio *
    wing_center_chord) ≠ 0) (h14 : 0 < wing_center_chord + ((((2 * (((1 / 2) *
    fuselage_avg_diameter) + (if 0 < landinggear_main_gear_location then 6 else 0))) *
    (wing_taper_ratio - 1)) * wing_center_chord) / wing_span)) :
    HasDerivAt (fun t => out_wing_volume_no_fold wing_taper_ratio t wing_thickness_to_chord_root
      wing_thickness_to_chord_tip fuselage_avg_diameter wing_span fuel_wing_fuel_fraction
      wing_center_chord) (J_wing_volume_no_fold__landinggear_main_gear_location wing_taper_ratio
      landinggear_main_gear_location wing_thickness_to_chord_root wing_thickness_to_chord_tip
      fuselage_avg_diameter wing_span fuel_wing_fuel_fraction wing_center_chord)
      landinggear_main_gear_location ∧
    HasDerivAt (fun t => out_wing_volume_no_fold wing_taper_ratio landinggear_main_gear_location t
      wing_thickness_to_chord_tip fuselage_avg_diameter wing_span fuel_wing_fuel_fraction
      wing_center_chord) (J_wing_volume_no_fold__wing_thickness_to_chord_root wing_taper_ratio
      landinggear_main_gear_location wing_thickness_to_chord_root wing_thickness_to_chord_tip
      fuselage_avg_diameter wing_span fuel_wing_fuel_fraction wing_center_chord)
      wing_thickness_to_chord_root ∧
    HasDerivAt (fun t => out_wing_volume_no_fold wing_taper_ratio landinggear_main_gear_location
      wing_thickness_to_chord_root t fuselage_avg_diameter wing_span fuel_wing_fuel_fraction
      wing_center_chord) (J_wing_volume_no_fold__wing_thickness_to_chord_tip wing_taper_ratio
      landinggear_main_gear_location wing_thickness_to_chord_root wing_thickness_to_chord_tip
      fuselage_avg_diameter wing_span fuel_wing_fuel_fraction wing_center_chord)
      wing_thickness_to_chord_tip ∧
    HasDerivAt (fun t => out_wing_volume_no_fold wing_taper_ratio landinggear_main_gear_location
      wing_thickness_to_chord_root wing_thickness_to_chord_tip fuselage_avg_diameter wing_span t
      wing_center_chord) (J_wing_volume_no_fold__fuel_wing_fuel_fraction wing_taper_ratio
      landinggear_main_gear_location wing_thickness_to_chord_root wing_thickness_to_chord_tip
      fuselage_avg_diameter wing_span fuel_wing_fuel_fraction wing_center_chord)
      fuel_wing_fuel_fraction :=
  ⟨d_wing_volume_no_fold__landinggear_main_gear_location _ _ _ _ _ _ _ _ h0 h1 h2 h3 h4 h5 h6 h7
    h8 h9 h10 h11 h12 h13 h14, d_wing_volume_no_fold__wing_thickness_to_chord_root _ _ _ _ _ _ _ _
    h1 h2 h3 h4 h5 h6 h7 h8 h9 h10 h11 h12 h13 h14,
    d_wing_volume_no_fold__wing_thickness_to_chord_tip _ _ _ _ _ _ _ _ h1 h2 h3 h4 h5 h6 h7 h8 h9
    h10 h11 h12 h13 h14, d_wing_volume_no_fold__fuel_wing_fuel_fraction _ _ _ _ _ _ _ _ h1 h2 h3
    h4 h5 h6 h7 h8 h9 h10 h11 h12 h13 h14⟩

example : ∃ wing_taper_ratio landinggear_main_gear_location wing_thickness_to_chord_root
      wing_thickness_to_chord_tip fuselage_avg_diameter wing_span fuel_wing_fuel_fraction
      wing_center_chord : ℝ,
      landinggear_main_gear_location ≠ 0 ∧
      0 < wing_span ∧
      0 < ((1 / 2) * wing_span) - (((1 / 2) * fuselage_avg_diameter) + (if 0 <
        landinggear_main_gear_location then 6 else 0)) ∧
      0 < (wing_center_chord + (((2 * (((1 / 2) * fuselage_avg_diameter) + (if 0 <
        landinggear_main_gear_location then 6 else 0))) * ((wing_taper_ratio * wing_center_chord)
        - wing_center_chord)) / wing_span)) + (wing_taper_ratio * wing_center_chord) ∧
      wing_center_chord + (((2 * (((1 / 2) * fuselage_avg_diameter) + (if 0 <
        landinggear_main_gear_location then 6 else 0))) * ((wing_taper_ratio * wing_center_chord)
        - wing_center_chord)) / wing_span) ≠ 0 ∧
      ((1 / 2) * wing_span) - (((1 / 2) * fuselage_avg_diameter) + (if 0 <
        landinggear_main_gear_location then 6 else 0)) ≠ 0 ∧
      (wing_center_chord + (((2 * (((1 / 2) * fuselage_avg_diameter) + (if 0 <
        landinggear_main_gear_location then 6 else 0))) * ((wing_taper_ratio * wing_center_chord)
        - wing_center_chord)) / wing_span)) + (wing_taper_ratio * wing_center_chord) ≠ 0 ∧
      (wing_span - fuselage_avg_diameter) - (2 * (if 0 < landinggear_main_gear_location then 6 else 0))
        ≠ 0 ∧
      0 < wing_taper_ratio ∧
      0 < wing_center_chord ∧
      0 < wing_center_chord + (((2 * (((1 / 2) * fuselage_avg_diameter) + (if 0 <
        landinggear_main_gear_location then 6 else 0))) * ((wing_taper_ratio * wing_center_chord)
        - wing_center_chord)) / wing_span) ∧
      0 < (wing_center_chord + ((((2 * (((1 / 2) * fuselage_avg_diameter) + (if 0 <
        landinggear_main_gear_location then 6 else 0))) * (wing_taper_ratio - 1)) *
        wing_center_chord) / wing_span)) + (wing_taper_ratio * wing_center_chord) ∧
      wing_center_chord + ((((2 * (((1 / 2) * fuselage_avg_diameter) + (if 0 <
        landinggear_main_gear_location then 6 else 0))) * (wing_taper_ratio - 1)) *
        wing_center_chord) / wing_span) ≠ 0 ∧
      (wing_center_chord + ((((2 * (((1 / 2) * fuselage_avg_diameter) + (if 0 <
        landinggear_main_gear_location then 6 else 0))) * (wing_taper_ratio - 1)) *
        wing_center_chord) / wing_span)) + (wing_taper_ratio * wing_center_chord) ≠ 0 ∧
      0 < wing_center_chord + ((((2 * (((1 / 2) * fuselage_avg_diameter) + (if 0 <
        landinggear_main_gear_location then 6 else 0))) * (wing_taper_ratio - 1)) *
        wing_center_chord) / wing_span) :=
  ⟨1 / 100, 1 / 100, 0, 1 / 100, 1, 1000, 0, 1000, by comp_example, by comp_example, by
    comp_example, by comp_example, by comp_example, by comp_example, by comp_example, by
    comp_example, by comp_example, by comp_example, by comp_example, by comp_example, by
    comp_example, by comp_example, by comp_example⟩

end Verif.Comp.GeometryGaspBasedWing.BWBWingVolume_winghasfold_no_smooth

namespace Verif.Comp.GeometryGaspBasedWing.BWBWingVolume_no_winghasfold_no_smooth
open Real

/-- aviary/subsystems/geometry/gasp_based/wing.py:564 -/
noncomputable abbrev wid_grx (landinggear_main_gear_location : ℝ) : ℝ :=
  if 0 < landinggear_main_gear_location then 6 else 0

/-- aviary/subsystems/geometry/gasp_based/wing.py:569 -/
noncomputable abbrev ctip (wing_taper_ratio wing_center_chord : ℝ) : ℝ :=
  wing_taper_ratio * wing_center_chord

/-- aviary/subsystems/geometry/gasp_based/wing.py:570 -/
noncomputable abbrev tcf (landinggear_main_gear_location wing_thickness_to_chord_root wing_thickness_to_chord_tip fuselage_avg_diameter wing_span : ℝ) : ℝ :=
  wing_thickness_to_chord_root - (((2 * (((1 / 2) * fuselage_avg_diameter) + (wid_grx
    landinggear_main_gear_location))) * (wing_thickness_to_chord_root -
    wing_thickness_to_chord_tip)) / wing_span)

/-- aviary/subsystems/geometry/gasp_based/wing.py:574 -/
noncomputable abbrev cfuel (wing_taper_ratio landinggear_main_gear_location fuselage_avg_diameter wing_span wing_center_chord : ℝ) : ℝ :=
  wing_center_chord + (((2 * (((1 / 2) * fuselage_avg_diameter) + (wid_grx
    landinggear_main_gear_location))) * ((ctip wing_taper_ratio wing_center_chord) -
    wing_center_chord)) / wing_span)

/-- aviary/subsystems/geometry/gasp_based/wing.py:580 -/
noncomputable abbrev sw_nfx (wing_taper_ratio landinggear_main_gear_location fuselage_avg_diameter wing_span wing_center_chord : ℝ) : ℝ :=
  (((1 / 2) * wing_span) - (((1 / 2) * fuselage_avg_diameter) + (wid_grx
    landinggear_main_gear_location))) * ((cfuel wing_taper_ratio landinggear_main_gear_location
    fuselage_avg_diameter wing_span wing_center_chord) + (ctip wing_taper_ratio
    wing_center_chord))

/-- aviary/subsystems/geometry/gasp_based/wing.py:584 -/
noncomputable abbrev slm_nfx (wing_taper_ratio landinggear_main_gear_location fuselage_avg_diameter wing_span wing_center_chord : ℝ) : ℝ :=
  (ctip wing_taper_ratio wing_center_chord) / (cfuel wing_taper_ratio
    landinggear_main_gear_location fuselage_avg_diameter wing_span wing_center_chord)

/-- aviary/subsystems/geometry/gasp_based/wing.py:585 -/
noncomputable abbrev ar_nfx (wing_taper_ratio landinggear_main_gear_location fuselage_avg_diameter wing_span wing_center_chord : ℝ) : ℝ :=
  (((wing_span - fuselage_avg_diameter) - (2 * (wid_grx landinggear_main_gear_location))) ^ 2) /
    (sw_nfx wing_taper_ratio landinggear_main_gear_location fuselage_avg_diameter wing_span
    wing_center_chord)

/-- aviary/subsystems/geometry/gasp_based/wing.py:589 -/
noncomputable abbrev tcm (landinggear_main_gear_location wing_thickness_to_chord_root wing_thickness_to_chord_tip fuselage_avg_diameter wing_span : ℝ) : ℝ :=
  (1 / 2) * ((tcf landinggear_main_gear_location wing_thickness_to_chord_root
    wing_thickness_to_chord_tip fuselage_avg_diameter wing_span) + wing_thickness_to_chord_tip)

/-- aviary/subsystems/geometry/gasp_based/wing.py:592 -/
noncomputable abbrev numer (wing_taper_ratio landinggear_main_gear_location wing_thickness_to_chord_root wing_thickness_to_chord_tip fuselage_avg_diameter wing_span fuel_wing_fuel_fraction wing_center_chord : ℝ) : ℝ :=
  (((fuel_wing_fuel_fraction * (888889 / 1000000)) * (tcm landinggear_main_gear_location
    wing_thickness_to_chord_root wing_thickness_to_chord_tip fuselage_avg_diameter wing_span)) *
    ((sw_nfx wing_taper_ratio landinggear_main_gear_location fuselage_avg_diameter wing_span
    wing_center_chord) ^ ((3 / 2) : ℝ))) * ((2 * (slm_nfx wing_taper_ratio
    landinggear_main_gear_location fuselage_avg_diameter wing_span wing_center_chord)) + 1)

/-- aviary/subsystems/geometry/gasp_based/wing.py:593 -/
noncomputable abbrev denom (wing_taper_ratio landinggear_main_gear_location fuselage_avg_diameter wing_span wing_center_chord : ℝ) : ℝ :=
  ((ar_nfx wing_taper_ratio landinggear_main_gear_location fuselage_avg_diameter wing_span
    wing_center_chord) ^ ((1 / 2) : ℝ)) * (((slm_nfx wing_taper_ratio
    landinggear_main_gear_location fuselage_avg_diameter wing_span wing_center_chord) + 1) ^ 2)

/-- aviary/subsystems/geometry/gasp_based/wing.py:594 -/
noncomputable abbrev fvolw_geom (wing_taper_ratio landinggear_main_gear_location wing_thickness_to_chord_root wing_thickness_to_chord_tip fuselage_avg_diameter wing_span fuel_wing_fuel_fraction wing_center_chord : ℝ) : ℝ :=
  (numer wing_taper_ratio landinggear_main_gear_location wing_thickness_to_chord_root
    wing_thickness_to_chord_tip fuselage_avg_diameter wing_span fuel_wing_fuel_fraction
    wing_center_chord) / (denom wing_taper_ratio landinggear_main_gear_location
    fuselage_avg_diameter wing_span wing_center_chord)

/-- aviary/subsystems/geometry/gasp_based/wing.py:627 -/
noncomputable abbrev dtcf_dloc_main_gear (wing_thickness_to_chord_root wing_thickness_to_chord_tip wing_span : ℝ) : ℝ :=
  (0 * (wing_thickness_to_chord_root - wing_thickness_to_chord_tip)) / wing_span

/-- aviary/subsystems/geometry/gasp_based/wing.py:632 -/
noncomputable abbrev dtcf_dtc_ratio_root (landinggear_main_gear_location fuselage_avg_diameter wing_span : ℝ) : ℝ :=
  1 - ((2 * (((1 / 2) * fuselage_avg_diameter) + (wid_grx landinggear_main_gear_location))) /
    wing_span)

/-- aviary/subsystems/geometry/gasp_based/wing.py:633 -/
noncomputable abbrev dtcf_dtc_ratio_tip (landinggear_main_gear_location fuselage_avg_diameter wing_span : ℝ) : ℝ :=
  (2 * (((1 / 2) * fuselage_avg_diameter) + (wid_grx landinggear_main_gear_location))) /
    wing_span

/-- aviary/subsystems/geometry/gasp_based/wing.py:634 -/
noncomputable abbrev dtcf_dswf (wing_thickness_to_chord_root wing_thickness_to_chord_tip wing_span : ℝ) : ℝ :=
  (-(wing_thickness_to_chord_root - wing_thickness_to_chord_tip)) / wing_span

/-- aviary/subsystems/geometry/gasp_based/wing.py:635 -/
noncomputable abbrev dtcf_dwingspan (landinggear_main_gear_location wing_thickness_to_chord_root wing_thickness_to_chord_tip fuselage_avg_diameter wing_span : ℝ) : ℝ :=
  ((2 * (((1 / 2) * fuselage_avg_diameter) + (wid_grx landinggear_main_gear_location))) *
    (wing_thickness_to_chord_root - wing_thickness_to_chord_tip)) / (wing_span ^ 2)

/-- aviary/subsystems/geometry/gasp_based/wing.py:639 -/
noncomputable abbrev cfuel_2 (wing_taper_ratio landinggear_main_gear_location fuselage_avg_diameter wing_span wing_center_chord : ℝ) : ℝ :=
  wing_center_chord + ((((2 * (((1 / 2) * fuselage_avg_diameter) + (wid_grx
    landinggear_main_gear_location))) * (wing_taper_ratio - 1)) * wing_center_chord) /
    wing_span)

/-- aviary/subsystems/geometry/gasp_based/wing.py:643 -/
noncomputable abbrev dcfuel_dcenter_chord_wing (wing_taper_ratio landinggear_main_gear_location fuselage_avg_diameter wing_span : ℝ) : ℝ :=
  1 + (((2 * (((1 / 2) * fuselage_avg_diameter) + (wid_grx landinggear_main_gear_location))) *
    (wing_taper_ratio - 1)) / wing_span)

/-- aviary/subsystems/geometry/gasp_based/wing.py:646 -/
noncomputable abbrev dcfuel_dswf (wing_taper_ratio wing_span wing_center_chord : ℝ) : ℝ :=
  ((wing_taper_ratio - 1) * wing_center_chord) / wing_span

/-- aviary/subsystems/geometry/gasp_based/wing.py:647 -/
noncomputable abbrev dcfuel_dloc_main_gear (wing_taper_ratio wing_span : ℝ) : ℝ :=
  (0 * (wing_taper_ratio - 1)) / wing_span

/-- aviary/subsystems/geometry/gasp_based/wing.py:648 -/
noncomputable abbrev dcfuel_dtaper_ratio (landinggear_main_gear_location fuselage_avg_diameter wing_span wing_center_chord : ℝ) : ℝ :=
  ((2 * (((1 / 2) * fuselage_avg_diameter) + (wid_grx landinggear_main_gear_location))) *
    wing_center_chord) / wing_span

/-- aviary/subsystems/geometry/gasp_based/wing.py:649 -/
noncomputable abbrev dcfuel_dwingspan (wing_taper_ratio landinggear_main_gear_location fuselage_avg_diameter wing_span wing_center_chord : ℝ) : ℝ :=
  ((((-2) * (((1 / 2) * fuselage_avg_diameter) + (wid_grx landinggear_main_gear_location))) *
    (wing_taper_ratio - 1)) * wing_center_chord) / (wing_span ^ 2)

/-- aviary/subsystems/geometry/gasp_based/wing.py:657 -/
noncomputable abbrev sw_nfx_2 (wing_taper_ratio landinggear_main_gear_location fuselage_avg_diameter wing_span wing_center_chord : ℝ) : ℝ :=
  (((1 / 2) * wing_span) - (((1 / 2) * fuselage_avg_diameter) + (wid_grx
    landinggear_main_gear_location))) * ((cfuel_2 wing_taper_ratio
    landinggear_main_gear_location fuselage_avg_diameter wing_span wing_center_chord) +
    (wing_taper_ratio * wing_center_chord))

/-- aviary/subsystems/geometry/gasp_based/wing.py:660 -/
noncomputable abbrev dsw_nfx_dcenter_chord_wing (wing_taper_ratio landinggear_main_gear_location fuselage_avg_diameter wing_span : ℝ) : ℝ :=
  (((1 / 2) * wing_span) - (((1 / 2) * fuselage_avg_diameter) + (wid_grx
    landinggear_main_gear_location))) * ((dcfuel_dcenter_chord_wing wing_taper_ratio
    landinggear_main_gear_location fuselage_avg_diameter wing_span) + wing_taper_ratio)

/-- aviary/subsystems/geometry/gasp_based/wing.py:663 -/
noncomputable abbrev dsw_nfx_dswf (wing_taper_ratio landinggear_main_gear_location fuselage_avg_diameter wing_span wing_center_chord : ℝ) : ℝ :=
  ((-(1 / 2)) * ((cfuel_2 wing_taper_ratio landinggear_main_gear_location fuselage_avg_diameter
    wing_span wing_center_chord) + (wing_taper_ratio * wing_center_chord))) + ((((1 / 2) *
    wing_span) - (((1 / 2) * fuselage_avg_diameter) + (wid_grx landinggear_main_gear_location)))
    * (dcfuel_dswf wing_taper_ratio wing_span wing_center_chord))

/-- aviary/subsystems/geometry/gasp_based/wing.py:667 -/
noncomputable abbrev dsw_nfx_dloc_main_gear (wing_taper_ratio landinggear_main_gear_location fuselage_avg_diameter wing_span wing_center_chord : ℝ) : ℝ :=
  0 * ((cfuel_2 wing_taper_ratio landinggear_main_gear_location fuselage_avg_diameter wing_span
    wing_center_chord) + (wing_taper_ratio * wing_center_chord))

/-- aviary/subsystems/geometry/gasp_based/wing.py:668 -/
noncomputable abbrev dsw_nfx_dtaper_ratio (landinggear_main_gear_location fuselage_avg_diameter wing_span wing_center_chord : ℝ) : ℝ :=
  (((1 / 2) * wing_span) - (((1 / 2) * fuselage_avg_diameter) + (wid_grx
    landinggear_main_gear_location))) * ((dcfuel_dtaper_ratio landinggear_main_gear_location
    fuselage_avg_diameter wing_span wing_center_chord) + wing_center_chord)

/-- aviary/subsystems/geometry/gasp_based/wing.py:671 -/
noncomputable abbrev dsw_nfx_dwingspan (wing_taper_ratio landinggear_main_gear_location fuselage_avg_diameter wing_span wing_center_chord : ℝ) : ℝ :=
  ((1 / 2) * ((cfuel_2 wing_taper_ratio landinggear_main_gear_location fuselage_avg_diameter
    wing_span wing_center_chord) + (wing_taper_ratio * wing_center_chord))) + ((((1 / 2) *
    wing_span) - (((1 / 2) * fuselage_avg_diameter) + (wid_grx landinggear_main_gear_location)))
    * (dcfuel_dwingspan wing_taper_ratio landinggear_main_gear_location fuselage_avg_diameter
    wing_span wing_center_chord))

/-- aviary/subsystems/geometry/gasp_based/wing.py:676 -/
noncomputable abbrev slm_nfx_2 (wing_taper_ratio landinggear_main_gear_location fuselage_avg_diameter wing_span wing_center_chord : ℝ) : ℝ :=
  (wing_taper_ratio * wing_center_chord) / (cfuel_2 wing_taper_ratio
    landinggear_main_gear_location fuselage_avg_diameter wing_span wing_center_chord)

/-- aviary/subsystems/geometry/gasp_based/wing.py:677 -/
noncomputable abbrev dtaper_ratio_nfx_dtaper_ratio (wing_taper_ratio landinggear_main_gear_location fuselage_avg_diameter wing_span wing_center_chord : ℝ) : ℝ :=
  (wing_center_chord / (cfuel_2 wing_taper_ratio landinggear_main_gear_location
    fuselage_avg_diameter wing_span wing_center_chord)) - (((wing_taper_ratio *
    wing_center_chord) * (dcfuel_dtaper_ratio landinggear_main_gear_location
    fuselage_avg_diameter wing_span wing_center_chord)) / ((cfuel_2 wing_taper_ratio
    landinggear_main_gear_location fuselage_avg_diameter wing_span wing_center_chord) ^ 2))

/-- aviary/subsystems/geometry/gasp_based/wing.py:680 -/
noncomputable abbrev dtaper_ratio_nfx_dcenter_chord_wing (wing_taper_ratio landinggear_main_gear_location fuselage_avg_diameter wing_span wing_center_chord : ℝ) : ℝ :=
  (wing_taper_ratio / (cfuel_2 wing_taper_ratio landinggear_main_gear_location
    fuselage_avg_diameter wing_span wing_center_chord)) - (((wing_taper_ratio *
    wing_center_chord) * (dcfuel_dcenter_chord_wing wing_taper_ratio
    landinggear_main_gear_location fuselage_avg_diameter wing_span)) / ((cfuel_2
    wing_taper_ratio landinggear_main_gear_location fuselage_avg_diameter wing_span
    wing_center_chord) ^ 2))

/-- aviary/subsystems/geometry/gasp_based/wing.py:683 -/
noncomputable abbrev dtaper_ratio_nfx_dswf (wing_taper_ratio landinggear_main_gear_location fuselage_avg_diameter wing_span wing_center_chord : ℝ) : ℝ :=
  (((-wing_taper_ratio) * wing_center_chord) * (dcfuel_dswf wing_taper_ratio wing_span
    wing_center_chord)) / ((cfuel_2 wing_taper_ratio landinggear_main_gear_location
    fuselage_avg_diameter wing_span wing_center_chord) ^ 2)

/-- aviary/subsystems/geometry/gasp_based/wing.py:684 -/
noncomputable abbrev dtaper_ratio_nfx_dloc_main_gear (wing_taper_ratio landinggear_main_gear_location fuselage_avg_diameter wing_span wing_center_chord : ℝ) : ℝ :=
  (((-wing_taper_ratio) * wing_center_chord) * (dcfuel_dloc_main_gear wing_taper_ratio
    wing_span)) / ((cfuel_2 wing_taper_ratio landinggear_main_gear_location
    fuselage_avg_diameter wing_span wing_center_chord) ^ 2)

/-- aviary/subsystems/geometry/gasp_based/wing.py:687 -/
noncomputable abbrev dtaper_ratio_nfx_dwingspan (wing_taper_ratio landinggear_main_gear_location fuselage_avg_diameter wing_span wing_center_chord : ℝ) : ℝ :=
  (((-wing_taper_ratio) * wing_center_chord) * (dcfuel_dwingspan wing_taper_ratio
    landinggear_main_gear_location fuselage_avg_diameter wing_span wing_center_chord)) /
    ((cfuel_2 wing_taper_ratio landinggear_main_gear_location fuselage_avg_diameter wing_span
    wing_center_chord) ^ 2)

/-- aviary/subsystems/geometry/gasp_based/wing.py:689 -/
noncomputable abbrev ar_nfx_2 (wing_taper_ratio landinggear_main_gear_location fuselage_avg_diameter wing_span wing_center_chord : ℝ) : ℝ :=
  (((wing_span - fuselage_avg_diameter) - (2 * (wid_grx landinggear_main_gear_location))) ^ 2) /
    (sw_nfx_2 wing_taper_ratio landinggear_main_gear_location fuselage_avg_diameter wing_span
    wing_center_chord)

/-- aviary/subsystems/geometry/gasp_based/wing.py:690 -/
noncomputable abbrev dar_nfx_dtaper_ratio (wing_taper_ratio landinggear_main_gear_location fuselage_avg_diameter wing_span wing_center_chord : ℝ) : ℝ :=
  ((-(((wing_span - fuselage_avg_diameter) - (2 * (wid_grx landinggear_main_gear_location))) ^
    2)) * (dsw_nfx_dtaper_ratio landinggear_main_gear_location fuselage_avg_diameter wing_span
    wing_center_chord)) / ((sw_nfx_2 wing_taper_ratio landinggear_main_gear_location
    fuselage_avg_diameter wing_span wing_center_chord) ^ 2)

/-- aviary/subsystems/geometry/gasp_based/wing.py:693 -/
noncomputable abbrev dar_nfx_dcenter_chord_wing (wing_taper_ratio landinggear_main_gear_location fuselage_avg_diameter wing_span wing_center_chord : ℝ) : ℝ :=
  ((-(((wing_span - fuselage_avg_diameter) - (2 * (wid_grx landinggear_main_gear_location))) ^
    2)) * (dsw_nfx_dcenter_chord_wing wing_taper_ratio landinggear_main_gear_location
    fuselage_avg_diameter wing_span)) / ((sw_nfx_2 wing_taper_ratio
    landinggear_main_gear_location fuselage_avg_diameter wing_span wing_center_chord) ^ 2)

/-- aviary/subsystems/geometry/gasp_based/wing.py:698 -/
noncomputable abbrev dar_nfx_dswf (wing_taper_ratio landinggear_main_gear_location fuselage_avg_diameter wing_span wing_center_chord : ℝ) : ℝ :=
  (((-2) * ((wing_span - fuselage_avg_diameter) - (2 * (wid_grx
    landinggear_main_gear_location)))) / (sw_nfx_2 wing_taper_ratio
    landinggear_main_gear_location fuselage_avg_diameter wing_span wing_center_chord)) -
    (((((wing_span - fuselage_avg_diameter) - (2 * (wid_grx landinggear_main_gear_location))) ^
    2) * (dsw_nfx_dswf wing_taper_ratio landinggear_main_gear_location fuselage_avg_diameter
    wing_span wing_center_chord)) / ((sw_nfx_2 wing_taper_ratio landinggear_main_gear_location
    fuselage_avg_diameter wing_span wing_center_chord) ^ 2))

/-- aviary/subsystems/geometry/gasp_based/wing.py:702 -/
noncomputable abbrev dar_nfx_dloc_main_gear (wing_taper_ratio landinggear_main_gear_location fuselage_avg_diameter wing_span wing_center_chord : ℝ) : ℝ :=
  ((-(((wing_span - fuselage_avg_diameter) - (2 * (wid_grx landinggear_main_gear_location))) ^
    2)) * (dsw_nfx_dloc_main_gear wing_taper_ratio landinggear_main_gear_location
    fuselage_avg_diameter wing_span wing_center_chord)) / ((sw_nfx_2 wing_taper_ratio
    landinggear_main_gear_location fuselage_avg_diameter wing_span wing_center_chord) ^ 2)

/-- aviary/subsystems/geometry/gasp_based/wing.py:705 -/
noncomputable abbrev dar_nfx_dwingspan (wing_taper_ratio landinggear_main_gear_location fuselage_avg_diameter wing_span wing_center_chord : ℝ) : ℝ :=
  ((2 * ((wing_span - fuselage_avg_diameter) - (2 * (wid_grx landinggear_main_gear_location))))
    / (sw_nfx_2 wing_taper_ratio landinggear_main_gear_location fuselage_avg_diameter wing_span
    wing_center_chord)) - (((((wing_span - fuselage_avg_diameter) - (2 * (wid_grx
    landinggear_main_gear_location))) ^ 2) * (dsw_nfx_dwingspan wing_taper_ratio
    landinggear_main_gear_location fuselage_avg_diameter wing_span wing_center_chord)) /
    ((sw_nfx_2 wing_taper_ratio landinggear_main_gear_location fuselage_avg_diameter wing_span
    wing_center_chord) ^ 2))

/-- aviary/subsystems/geometry/gasp_based/wing.py:711 -/
noncomputable abbrev dtcm_dloc_main_gear (wing_thickness_to_chord_root wing_thickness_to_chord_tip wing_span : ℝ) : ℝ :=
  (1 / 2) * (dtcf_dloc_main_gear wing_thickness_to_chord_root wing_thickness_to_chord_tip
    wing_span)

/-- aviary/subsystems/geometry/gasp_based/wing.py:714 -/
noncomputable abbrev dtcm_dtc_ratio_root (landinggear_main_gear_location fuselage_avg_diameter wing_span : ℝ) : ℝ :=
  (1 / 2) * (dtcf_dtc_ratio_root landinggear_main_gear_location fuselage_avg_diameter wing_span)

/-- aviary/subsystems/geometry/gasp_based/wing.py:715 -/
noncomputable abbrev dtcm_dtc_ratio_tip (landinggear_main_gear_location fuselage_avg_diameter wing_span : ℝ) : ℝ :=
  ((1 / 2) * (dtcf_dtc_ratio_tip landinggear_main_gear_location fuselage_avg_diameter
    wing_span)) + (1 / 2)

/-- aviary/subsystems/geometry/gasp_based/wing.py:716 -/
noncomputable abbrev dtcm_dswf (wing_thickness_to_chord_root wing_thickness_to_chord_tip wing_span : ℝ) : ℝ :=
  (1 / 2) * (dtcf_dswf wing_thickness_to_chord_root wing_thickness_to_chord_tip wing_span)

/-- aviary/subsystems/geometry/gasp_based/wing.py:717 -/
noncomputable abbrev dtcm_dwingspan (landinggear_main_gear_location wing_thickness_to_chord_root wing_thickness_to_chord_tip fuselage_avg_diameter wing_span : ℝ) : ℝ :=
  (1 / 2) * (dtcf_dwingspan landinggear_main_gear_location wing_thickness_to_chord_root
    wing_thickness_to_chord_tip fuselage_avg_diameter wing_span)

/-- aviary/subsystems/geometry/gasp_based/wing.py:719 -/
noncomputable abbrev numer_2 (wing_taper_ratio landinggear_main_gear_location wing_thickness_to_chord_root wing_thickness_to_chord_tip fuselage_avg_diameter wing_span fuel_wing_fuel_fraction wing_center_chord : ℝ) : ℝ :=
  (((fuel_wing_fuel_fraction * (888889 / 1000000)) * (tcm landinggear_main_gear_location
    wing_thickness_to_chord_root wing_thickness_to_chord_tip fuselage_avg_diameter wing_span)) *
    ((sw_nfx_2 wing_taper_ratio landinggear_main_gear_location fuselage_avg_diameter wing_span
    wing_center_chord) ^ ((3 / 2) : ℝ))) * ((2 * (slm_nfx_2 wing_taper_ratio
    landinggear_main_gear_location fuselage_avg_diameter wing_span wing_center_chord)) + 1)

/-- aviary/subsystems/geometry/gasp_based/wing.py:720 -/
noncomputable abbrev dnumer_dfuel_vol_frac (wing_taper_ratio landinggear_main_gear_location wing_thickness_to_chord_root wing_thickness_to_chord_tip fuselage_avg_diameter wing_span wing_center_chord : ℝ) : ℝ :=
  (((888889 / 1000000) * (tcm landinggear_main_gear_location wing_thickness_to_chord_root
    wing_thickness_to_chord_tip fuselage_avg_diameter wing_span)) * ((sw_nfx_2 wing_taper_ratio
    landinggear_main_gear_location fuselage_avg_diameter wing_span wing_center_chord) ^ ((3 / 2)
    : ℝ))) * ((2 * (slm_nfx_2 wing_taper_ratio landinggear_main_gear_location
    fuselage_avg_diameter wing_span wing_center_chord)) + 1)

/-- aviary/subsystems/geometry/gasp_based/wing.py:721 -/
noncomputable abbrev dnumer_dloc_main_gear (wing_taper_ratio landinggear_main_gear_location wing_thickness_to_chord_root wing_thickness_to_chord_tip fuselage_avg_diameter wing_span fuel_wing_fuel_fraction wing_center_chord : ℝ) : ℝ :=
  (((((fuel_wing_fuel_fraction * (888889 / 1000000)) * (dtcm_dloc_main_gear
    wing_thickness_to_chord_root wing_thickness_to_chord_tip wing_span)) * ((sw_nfx_2
    wing_taper_ratio landinggear_main_gear_location fuselage_avg_diameter wing_span
    wing_center_chord) ^ ((3 / 2) : ℝ))) * ((2 * (slm_nfx_2 wing_taper_ratio
    landinggear_main_gear_location fuselage_avg_diameter wing_span wing_center_chord)) + 1)) +
    ((((((fuel_wing_fuel_fraction * (888889 / 1000000)) * (tcm landinggear_main_gear_location
    wing_thickness_to_chord_root wing_thickness_to_chord_tip fuselage_avg_diameter wing_span)) *
    (3 / 2)) * (dsw_nfx_dloc_main_gear wing_taper_ratio landinggear_main_gear_location
    fuselage_avg_diameter wing_span wing_center_chord)) * ((sw_nfx_2 wing_taper_ratio
    landinggear_main_gear_location fuselage_avg_diameter wing_span wing_center_chord) ^ ((1 / 2)
    : ℝ))) * ((2 * (slm_nfx_2 wing_taper_ratio landinggear_main_gear_location
    fuselage_avg_diameter wing_span wing_center_chord)) + 1))) + ((((fuel_wing_fuel_fraction *
    (888889 / 1000000)) * (tcm landinggear_main_gear_location wing_thickness_to_chord_root
    wing_thickness_to_chord_tip fuselage_avg_diameter wing_span)) * ((sw_nfx_2 wing_taper_ratio
    landinggear_main_gear_location fuselage_avg_diameter wing_span wing_center_chord) ^ ((3 / 2)
    : ℝ))) * (2 * (dtaper_ratio_nfx_dloc_main_gear wing_taper_ratio
    landinggear_main_gear_location fuselage_avg_diameter wing_span wing_center_chord)))

/-- aviary/subsystems/geometry/gasp_based/wing.py:732 -/
noncomputable abbrev dnumer_dtaper_ratio (wing_taper_ratio landinggear_main_gear_location wing_thickness_to_chord_root wing_thickness_to_chord_tip fuselage_avg_diameter wing_span fuel_wing_fuel_fraction wing_center_chord : ℝ) : ℝ :=
  (((((fuel_wing_fuel_fraction * (888889 / 1000000)) * 0) * ((sw_nfx_2 wing_taper_ratio
    landinggear_main_gear_location fuselage_avg_diameter wing_span wing_center_chord) ^ ((3 / 2)
    : ℝ))) * ((2 * (slm_nfx_2 wing_taper_ratio landinggear_main_gear_location
    fuselage_avg_diameter wing_span wing_center_chord)) + 1)) + ((((((fuel_wing_fuel_fraction *
    (888889 / 1000000)) * (tcm landinggear_main_gear_location wing_thickness_to_chord_root
    wing_thickness_to_chord_tip fuselage_avg_diameter wing_span)) * (3 / 2)) *
    (dsw_nfx_dtaper_ratio landinggear_main_gear_location fuselage_avg_diameter wing_span
    wing_center_chord)) * ((sw_nfx_2 wing_taper_ratio landinggear_main_gear_location
    fuselage_avg_diameter wing_span wing_center_chord) ^ ((1 / 2) : ℝ))) * ((2 * (slm_nfx_2
    wing_taper_ratio landinggear_main_gear_location fuselage_avg_diameter wing_span
    wing_center_chord)) + 1))) + ((((fuel_wing_fuel_fraction * (888889 / 1000000)) * (tcm
    landinggear_main_gear_location wing_thickness_to_chord_root wing_thickness_to_chord_tip
    fuselage_avg_diameter wing_span)) * ((sw_nfx_2 wing_taper_ratio
    landinggear_main_gear_location fuselage_avg_diameter wing_span wing_center_chord) ^ ((3 / 2)
    : ℝ))) * (2 * (dtaper_ratio_nfx_dtaper_ratio wing_taper_ratio landinggear_main_gear_location
    fuselage_avg_diameter wing_span wing_center_chord)))

/-- aviary/subsystems/geometry/gasp_based/wing.py:743 -/
noncomputable abbrev dnumer_dcenter_chord_wing (wing_taper_ratio landinggear_main_gear_location wing_thickness_to_chord_root wing_thickness_to_chord_tip fuselage_avg_diameter wing_span fuel_wing_fuel_fraction wing_center_chord : ℝ) : ℝ :=
  (((((fuel_wing_fuel_fraction * (888889 / 1000000)) * 0) * ((sw_nfx_2 wing_taper_ratio
    landinggear_main_gear_location fuselage_avg_diameter wing_span wing_center_chord) ^ ((3 / 2)
    : ℝ))) * ((2 * (slm_nfx_2 wing_taper_ratio landinggear_main_gear_location
    fuselage_avg_diameter wing_span wing_center_chord)) + 1)) + ((((((fuel_wing_fuel_fraction *
    (888889 / 1000000)) * (tcm landinggear_main_gear_location wing_thickness_to_chord_root
    wing_thickness_to_chord_tip fuselage_avg_diameter wing_span)) * (3 / 2)) *
    (dsw_nfx_dcenter_chord_wing wing_taper_ratio landinggear_main_gear_location
    fuselage_avg_diameter wing_span)) * ((sw_nfx_2 wing_taper_ratio
    landinggear_main_gear_location fuselage_avg_diameter wing_span wing_center_chord) ^ ((1 / 2)
    : ℝ))) * ((2 * (slm_nfx_2 wing_taper_ratio landinggear_main_gear_location
    fuselage_avg_diameter wing_span wing_center_chord)) + 1))) + ((((fuel_wing_fuel_fraction *
    (888889 / 1000000)) * (tcm landinggear_main_gear_location wing_thickness_to_chord_root
    wing_thickness_to_chord_tip fuselage_avg_diameter wing_span)) * ((sw_nfx_2 wing_taper_ratio
    landinggear_main_gear_location fuselage_avg_diameter wing_span wing_center_chord) ^ ((3 / 2)
    : ℝ))) * (2 * (dtaper_ratio_nfx_dcenter_chord_wing wing_taper_ratio
    landinggear_main_gear_location fuselage_avg_diameter wing_span wing_center_chord)))

/-- aviary/subsystems/geometry/gasp_based/wing.py:758 -/
noncomputable abbrev dnumer_dtc_ratio_root (wing_taper_ratio landinggear_main_gear_location fuselage_avg_diameter wing_span fuel_wing_fuel_fraction wing_center_chord : ℝ) : ℝ :=
  (((fuel_wing_fuel_fraction * (888889 / 1000000)) * (dtcm_dtc_ratio_root
    landinggear_main_gear_location fuselage_avg_diameter wing_span)) * ((sw_nfx_2
    wing_taper_ratio landinggear_main_gear_location fuselage_avg_diameter wing_span
    wing_center_chord) ^ ((3 / 2) : ℝ))) * ((2 * (slm_nfx_2 wing_taper_ratio
    landinggear_main_gear_location fuselage_avg_diameter wing_span wing_center_chord)) + 1)

/-- aviary/subsystems/geometry/gasp_based/wing.py:761 -/
noncomputable abbrev dnumer_dtc_ratio_tip (wing_taper_ratio landinggear_main_gear_location fuselage_avg_diameter wing_span fuel_wing_fuel_fraction wing_center_chord : ℝ) : ℝ :=
  (((fuel_wing_fuel_fraction * (888889 / 1000000)) * (dtcm_dtc_ratio_tip
    landinggear_main_gear_location fuselage_avg_diameter wing_span)) * ((sw_nfx_2
    wing_taper_ratio landinggear_main_gear_location fuselage_avg_diameter wing_span
    wing_center_chord) ^ ((3 / 2) : ℝ))) * ((2 * (slm_nfx_2 wing_taper_ratio
    landinggear_main_gear_location fuselage_avg_diameter wing_span wing_center_chord)) + 1)

/-- aviary/subsystems/geometry/gasp_based/wing.py:764 -/
noncomputable abbrev dnumer_dswf (wing_taper_ratio landinggear_main_gear_location wing_thickness_to_chord_root wing_thickness_to_chord_tip fuselage_avg_diameter wing_span fuel_wing_fuel_fraction wing_center_chord : ℝ) : ℝ :=
  (((((fuel_wing_fuel_fraction * (888889 / 1000000)) * (dtcm_dswf wing_thickness_to_chord_root
    wing_thickness_to_chord_tip wing_span)) * ((sw_nfx_2 wing_taper_ratio
    landinggear_main_gear_location fuselage_avg_diameter wing_span wing_center_chord) ^ ((3 / 2)
    : ℝ))) * ((2 * (slm_nfx_2 wing_taper_ratio landinggear_main_gear_location
    fuselage_avg_diameter wing_span wing_center_chord)) + 1)) + ((((((fuel_wing_fuel_fraction *
    (888889 / 1000000)) * (tcm landinggear_main_gear_location wing_thickness_to_chord_root
    wing_thickness_to_chord_tip fuselage_avg_diameter wing_span)) * (3 / 2)) * (dsw_nfx_dswf
    wing_taper_ratio landinggear_main_gear_location fuselage_avg_diameter wing_span
    wing_center_chord)) * ((sw_nfx_2 wing_taper_ratio landinggear_main_gear_location
    fuselage_avg_diameter wing_span wing_center_chord) ^ ((1 / 2) : ℝ))) * ((2 * (slm_nfx_2
    wing_taper_ratio landinggear_main_gear_location fuselage_avg_diameter wing_span
    wing_center_chord)) + 1))) + ((((fuel_wing_fuel_fraction * (888889 / 1000000)) * (tcm
    landinggear_main_gear_location wing_thickness_to_chord_root wing_thickness_to_chord_tip
    fuselage_avg_diameter wing_span)) * ((sw_nfx_2 wing_taper_ratio
    landinggear_main_gear_location fuselage_avg_diameter wing_span wing_center_chord) ^ ((3 / 2)
    : ℝ))) * (2 * (dtaper_ratio_nfx_dswf wing_taper_ratio landinggear_main_gear_location
    fuselage_avg_diameter wing_span wing_center_chord)))

/-- aviary/subsystems/geometry/gasp_based/wing.py:775 -/
noncomputable abbrev dnumer_dwingspan (wing_taper_ratio landinggear_main_gear_location wing_thickness_to_chord_root wing_thickness_to_chord_tip fuselage_avg_diameter wing_span fuel_wing_fuel_fraction wing_center_chord : ℝ) : ℝ :=
  (((((fuel_wing_fuel_fraction * (888889 / 1000000)) * (dtcm_dwingspan
    landinggear_main_gear_location wing_thickness_to_chord_root wing_thickness_to_chord_tip
    fuselage_avg_diameter wing_span)) * ((sw_nfx_2 wing_taper_ratio
    landinggear_main_gear_location fuselage_avg_diameter wing_span wing_center_chord) ^ ((3 / 2)
    : ℝ))) * ((2 * (slm_nfx_2 wing_taper_ratio landinggear_main_gear_location
    fuselage_avg_diameter wing_span wing_center_chord)) + 1)) + ((((((fuel_wing_fuel_fraction *
    (888889 / 1000000)) * (tcm landinggear_main_gear_location wing_thickness_to_chord_root
    wing_thickness_to_chord_tip fuselage_avg_diameter wing_span)) * (3 / 2)) *
    (dsw_nfx_dwingspan wing_taper_ratio landinggear_main_gear_location fuselage_avg_diameter
    wing_span wing_center_chord)) * ((sw_nfx_2 wing_taper_ratio landinggear_main_gear_location
    fuselage_avg_diameter wing_span wing_center_chord) ^ ((1 / 2) : ℝ))) * ((2 * (slm_nfx_2
    wing_taper_ratio landinggear_main_gear_location fuselage_avg_diameter wing_span
    wing_center_chord)) + 1))) + ((((fuel_wing_fuel_fraction * (888889 / 1000000)) * (tcm
    landinggear_main_gear_location wing_thickness_to_chord_root wing_thickness_to_chord_tip
    fuselage_avg_diameter wing_span)) * ((sw_nfx_2 wing_taper_ratio
    landinggear_main_gear_location fuselage_avg_diameter wing_span wing_center_chord) ^ ((3 / 2)
    : ℝ))) * (2 * (dtaper_ratio_nfx_dwingspan wing_taper_ratio landinggear_main_gear_location
    fuselage_avg_diameter wing_span wing_center_chord)))

/-- aviary/subsystems/geometry/gasp_based/wing.py:787 -/
noncomputable abbrev denom_2 (wing_taper_ratio landinggear_main_gear_location fuselage_avg_diameter wing_span wing_center_chord : ℝ) : ℝ :=
  ((ar_nfx_2 wing_taper_ratio landinggear_main_gear_location fuselage_avg_diameter wing_span
    wing_center_chord) ^ ((1 / 2) : ℝ)) * (((slm_nfx_2 wing_taper_ratio
    landinggear_main_gear_location fuselage_avg_diameter wing_span wing_center_chord) + 1) ^ 2)

/-- aviary/subsystems/geometry/gasp_based/wing.py:788 -/
noncomputable abbrev ddenom_dtaper_ratio (wing_taper_ratio landinggear_main_gear_location fuselage_avg_diameter wing_span wing_center_chord : ℝ) : ℝ :=
  ((((1 / 2) * (dar_nfx_dtaper_ratio wing_taper_ratio landinggear_main_gear_location
    fuselage_avg_diameter wing_span wing_center_chord)) / ((ar_nfx_2 wing_taper_ratio
    landinggear_main_gear_location fuselage_avg_diameter wing_span wing_center_chord) ^ ((1 / 2)
    : ℝ))) * (((slm_nfx_2 wing_taper_ratio landinggear_main_gear_location fuselage_avg_diameter
    wing_span wing_center_chord) + 1) ^ 2)) + (((2 * ((ar_nfx_2 wing_taper_ratio
    landinggear_main_gear_location fuselage_avg_diameter wing_span wing_center_chord) ^ ((1 / 2)
    : ℝ))) * (dtaper_ratio_nfx_dtaper_ratio wing_taper_ratio landinggear_main_gear_location
    fuselage_avg_diameter wing_span wing_center_chord)) * ((slm_nfx_2 wing_taper_ratio
    landinggear_main_gear_location fuselage_avg_diameter wing_span wing_center_chord) + 1))

/-- aviary/subsystems/geometry/gasp_based/wing.py:791 -/
noncomputable abbrev ddenom_dcenter_chord_wing (wing_taper_ratio landinggear_main_gear_location fuselage_avg_diameter wing_span wing_center_chord : ℝ) : ℝ :=
  ((((1 / 2) * (dar_nfx_dcenter_chord_wing wing_taper_ratio landinggear_main_gear_location
    fuselage_avg_diameter wing_span wing_center_chord)) / ((ar_nfx_2 wing_taper_ratio
    landinggear_main_gear_location fuselage_avg_diameter wing_span wing_center_chord) ^ ((1 / 2)
    : ℝ))) * (((slm_nfx_2 wing_taper_ratio landinggear_main_gear_location fuselage_avg_diameter
    wing_span wing_center_chord) + 1) ^ 2)) + (((2 * ((ar_nfx_2 wing_taper_ratio
    landinggear_main_gear_location fuselage_avg_diameter wing_span wing_center_chord) ^ ((1 / 2)
    : ℝ))) * (dtaper_ratio_nfx_dcenter_chord_wing wing_taper_ratio
    landinggear_main_gear_location fuselage_avg_diameter wing_span wing_center_chord)) *
    ((slm_nfx_2 wing_taper_ratio landinggear_main_gear_location fuselage_avg_diameter wing_span
    wing_center_chord) + 1))

/-- aviary/subsystems/geometry/gasp_based/wing.py:794 -/
noncomputable abbrev ddenom_dswf (wing_taper_ratio landinggear_main_gear_location fuselage_avg_diameter wing_span wing_center_chord : ℝ) : ℝ :=
  ((((1 / 2) * (dar_nfx_dswf wing_taper_ratio landinggear_main_gear_location
    fuselage_avg_diameter wing_span wing_center_chord)) / ((ar_nfx_2 wing_taper_ratio
    landinggear_main_gear_location fuselage_avg_diameter wing_span wing_center_chord) ^ ((1 / 2)
    : ℝ))) * (((slm_nfx_2 wing_taper_ratio landinggear_main_gear_location fuselage_avg_diameter
    wing_span wing_center_chord) + 1) ^ 2)) + (((2 * ((ar_nfx_2 wing_taper_ratio
    landinggear_main_gear_location fuselage_avg_diameter wing_span wing_center_chord) ^ ((1 / 2)
    : ℝ))) * (dtaper_ratio_nfx_dswf wing_taper_ratio landinggear_main_gear_location
    fuselage_avg_diameter wing_span wing_center_chord)) * ((slm_nfx_2 wing_taper_ratio
    landinggear_main_gear_location fuselage_avg_diameter wing_span wing_center_chord) + 1))

/-- aviary/subsystems/geometry/gasp_based/wing.py:797 -/
noncomputable abbrev ddenom_dloc_main_gear (wing_taper_ratio landinggear_main_gear_location fuselage_avg_diameter wing_span wing_center_chord : ℝ) : ℝ :=
  ((((1 / 2) * (dar_nfx_dloc_main_gear wing_taper_ratio landinggear_main_gear_location
    fuselage_avg_diameter wing_span wing_center_chord)) / ((ar_nfx_2 wing_taper_ratio
    landinggear_main_gear_location fuselage_avg_diameter wing_span wing_center_chord) ^ ((1 / 2)
    : ℝ))) * (((slm_nfx_2 wing_taper_ratio landinggear_main_gear_location fuselage_avg_diameter
    wing_span wing_center_chord) + 1) ^ 2)) + (((2 * ((ar_nfx_2 wing_taper_ratio
    landinggear_main_gear_location fuselage_avg_diameter wing_span wing_center_chord) ^ ((1 / 2)
    : ℝ))) * (dtaper_ratio_nfx_dloc_main_gear wing_taper_ratio landinggear_main_gear_location
    fuselage_avg_diameter wing_span wing_center_chord)) * ((slm_nfx_2 wing_taper_ratio
    landinggear_main_gear_location fuselage_avg_diameter wing_span wing_center_chord) + 1))

/-- aviary/subsystems/geometry/gasp_based/wing.py:800 -/
noncomputable abbrev ddenom_dwingspan (wing_taper_ratio landinggear_main_gear_location fuselage_avg_diameter wing_span wing_center_chord : ℝ) : ℝ :=
  ((((1 / 2) * (dar_nfx_dwingspan wing_taper_ratio landinggear_main_gear_location
    fuselage_avg_diameter wing_span wing_center_chord)) / ((ar_nfx_2 wing_taper_ratio
    landinggear_main_gear_location fuselage_avg_diameter wing_span wing_center_chord) ^ ((1 / 2)
    : ℝ))) * (((slm_nfx_2 wing_taper_ratio landinggear_main_gear_location fuselage_avg_diameter
    wing_span wing_center_chord) + 1) ^ 2)) + (((2 * ((ar_nfx_2 wing_taper_ratio
    landinggear_main_gear_location fuselage_avg_diameter wing_span wing_center_chord) ^ ((1 / 2)
    : ℝ))) * (dtaper_ratio_nfx_dwingspan wing_taper_ratio landinggear_main_gear_location
    fuselage_avg_diameter wing_span wing_center_chord)) * ((slm_nfx_2 wing_taper_ratio
    landinggear_main_gear_location fuselage_avg_diameter wing_span wing_center_chord) + 1))

/-- aviary/subsystems/geometry/gasp_based/wing.py:808 -/
noncomputable abbrev dfvolw_geom_dfuel_vol_frac (wing_taper_ratio landinggear_main_gear_location wing_thickness_to_chord_root wing_thickness_to_chord_tip fuselage_avg_diameter wing_span fuel_wing_fuel_fraction wing_center_chord : ℝ) : ℝ :=
  (((dnumer_dfuel_vol_frac wing_taper_ratio landinggear_main_gear_location
    wing_thickness_to_chord_root wing_thickness_to_chord_tip fuselage_avg_diameter wing_span
    wing_center_chord) * (denom_2 wing_taper_ratio landinggear_main_gear_location
    fuselage_avg_diameter wing_span wing_center_chord)) - ((numer_2 wing_taper_ratio
    landinggear_main_gear_location wing_thickness_to_chord_root wing_thickness_to_chord_tip
    fuselage_avg_diameter wing_span fuel_wing_fuel_fraction wing_center_chord) * 0)) / ((denom_2
    wing_taper_ratio landinggear_main_gear_location fuselage_avg_diameter wing_span
    wing_center_chord) ^ 2)

/-- aviary/subsystems/geometry/gasp_based/wing.py:811 -/
noncomputable abbrev dfvolw_geom_dtc_ratio_root (wing_taper_ratio landinggear_main_gear_location wing_thickness_to_chord_root wing_thickness_to_chord_tip fuselage_avg_diameter wing_span fuel_wing_fuel_fraction wing_center_chord : ℝ) : ℝ :=
  (((dnumer_dtc_ratio_root wing_taper_ratio landinggear_main_gear_location fuselage_avg_diameter
    wing_span fuel_wing_fuel_fraction wing_center_chord) * (denom_2 wing_taper_ratio
    landinggear_main_gear_location fuselage_avg_diameter wing_span wing_center_chord)) -
    ((numer_2 wing_taper_ratio landinggear_main_gear_location wing_thickness_to_chord_root
    wing_thickness_to_chord_tip fuselage_avg_diameter wing_span fuel_wing_fuel_fraction
    wing_center_chord) * 0)) / ((denom_2 wing_taper_ratio landinggear_main_gear_location
    fuselage_avg_diameter wing_span wing_center_chord) ^ 2)

/-- aviary/subsystems/geometry/gasp_based/wing.py:814 -/
noncomputable abbrev dfvolw_geom_dtc_ratio_tip (wing_taper_ratio landinggear_main_gear_location wing_thickness_to_chord_root wing_thickness_to_chord_tip fuselage_avg_diameter wing_span fuel_wing_fuel_fraction wing_center_chord : ℝ) : ℝ :=
  (((dnumer_dtc_ratio_tip wing_taper_ratio landinggear_main_gear_location fuselage_avg_diameter
    wing_span fuel_wing_fuel_fraction wing_center_chord) * (denom_2 wing_taper_ratio
    landinggear_main_gear_location fuselage_avg_diameter wing_span wing_center_chord)) -
    ((numer_2 wing_taper_ratio landinggear_main_gear_location wing_thickness_to_chord_root
    wing_thickness_to_chord_tip fuselage_avg_diameter wing_span fuel_wing_fuel_fraction
    wing_center_chord) * 0)) / ((denom_2 wing_taper_ratio landinggear_main_gear_location
    fuselage_avg_diameter wing_span wing_center_chord) ^ 2)

/-- aviary/subsystems/geometry/gasp_based/wing.py:817 -/
noncomputable abbrev dfvolw_geom_dloc_main_gear (wing_taper_ratio landinggear_main_gear_location wing_thickness_to_chord_root wing_thickness_to_chord_tip fuselage_avg_diameter wing_span fuel_wing_fuel_fraction wing_center_chord : ℝ) : ℝ :=
  (((dnumer_dloc_main_gear wing_taper_ratio landinggear_main_gear_location
    wing_thickness_to_chord_root wing_thickness_to_chord_tip fuselage_avg_diameter wing_span
    fuel_wing_fuel_fraction wing_center_chord) * (denom_2 wing_taper_ratio
    landinggear_main_gear_location fuselage_avg_diameter wing_span wing_center_chord)) -
    ((numer_2 wing_taper_ratio landinggear_main_gear_location wing_thickness_to_chord_root
    wing_thickness_to_chord_tip fuselage_avg_diameter wing_span fuel_wing_fuel_fraction
    wing_center_chord) * (ddenom_dloc_main_gear wing_taper_ratio landinggear_main_gear_location
    fuselage_avg_diameter wing_span wing_center_chord))) / ((denom_2 wing_taper_ratio
    landinggear_main_gear_location fuselage_avg_diameter wing_span wing_center_chord) ^ 2)

/-- aviary/subsystems/geometry/gasp_based/wing.py:820 -/
noncomputable abbrev dfvolw_geom_dtaper_ratio (wing_taper_ratio landinggear_main_gear_location wing_thickness_to_chord_root wing_thickness_to_chord_tip fuselage_avg_diameter wing_span fuel_wing_fuel_fraction wing_center_chord : ℝ) : ℝ :=
  (((dnumer_dtaper_ratio wing_taper_ratio landinggear_main_gear_location
    wing_thickness_to_chord_root wing_thickness_to_chord_tip fuselage_avg_diameter wing_span
    fuel_wing_fuel_fraction wing_center_chord) * (denom_2 wing_taper_ratio
    landinggear_main_gear_location fuselage_avg_diameter wing_span wing_center_chord)) -
    ((numer_2 wing_taper_ratio landinggear_main_gear_location wing_thickness_to_chord_root
    wing_thickness_to_chord_tip fuselage_avg_diameter wing_span fuel_wing_fuel_fraction
    wing_center_chord) * (ddenom_dtaper_ratio wing_taper_ratio landinggear_main_gear_location
    fuselage_avg_diameter wing_span wing_center_chord))) / ((denom_2 wing_taper_ratio
    landinggear_main_gear_location fuselage_avg_diameter wing_span wing_center_chord) ^ 2)

/-- aviary/subsystems/geometry/gasp_based/wing.py:823 -/
noncomputable abbrev dfvolw_geom_dcenter_chord_wing (wing_taper_ratio landinggear_main_gear_location wing_thickness_to_chord_root wing_thickness_to_chord_tip fuselage_avg_diameter wing_span fuel_wing_fuel_fraction wing_center_chord : ℝ) : ℝ :=
  (((dnumer_dcenter_chord_wing wing_taper_ratio landinggear_main_gear_location
    wing_thickness_to_chord_root wing_thickness_to_chord_tip fuselage_avg_diameter wing_span
    fuel_wing_fuel_fraction wing_center_chord) * (denom_2 wing_taper_ratio
    landinggear_main_gear_location fuselage_avg_diameter wing_span wing_center_chord)) -
    ((numer_2 wing_taper_ratio landinggear_main_gear_location wing_thickness_to_chord_root
    wing_thickness_to_chord_tip fuselage_avg_diameter wing_span fuel_wing_fuel_fraction
    wing_center_chord) * (ddenom_dcenter_chord_wing wing_taper_ratio
    landinggear_main_gear_location fuselage_avg_diameter wing_span wing_center_chord))) /
    ((denom_2 wing_taper_ratio landinggear_main_gear_location fuselage_avg_diameter wing_span
    wing_center_chord) ^ 2)

/-- aviary/subsystems/geometry/gasp_based/wing.py:826 -/
noncomputable abbrev dfvolw_geom_dswf (wing_taper_ratio landinggear_main_gear_location wing_thickness_to_chord_root wing_thickness_to_chord_tip fuselage_avg_diameter wing_span fuel_wing_fuel_fraction wing_center_chord : ℝ) : ℝ :=
  (((dnumer_dswf wing_taper_ratio landinggear_main_gear_location wing_thickness_to_chord_root
    wing_thickness_to_chord_tip fuselage_avg_diameter wing_span fuel_wing_fuel_fraction
    wing_center_chord) * (denom_2 wing_taper_ratio landinggear_main_gear_location
    fuselage_avg_diameter wing_span wing_center_chord)) - ((numer_2 wing_taper_ratio
    landinggear_main_gear_location wing_thickness_to_chord_root wing_thickness_to_chord_tip
    fuselage_avg_diameter wing_span fuel_wing_fuel_fraction wing_center_chord) * (ddenom_dswf
    wing_taper_ratio landinggear_main_gear_location fuselage_avg_diameter wing_span
    wing_center_chord))) / ((denom_2 wing_taper_ratio landinggear_main_gear_location
    fuselage_avg_diameter wing_span wing_center_chord) ^ 2)

/-- aviary/subsystems/geometry/gasp_based/wing.py:827 -/
noncomputable abbrev dfvolw_geom_dwingspan (wing_taper_ratio landinggear_main_gear_location wing_thickness_to_chord_root wing_thickness_to_chord_tip fuselage_avg_diameter wing_span fuel_wing_fuel_fraction wing_center_chord : ℝ) : ℝ :=
  (((dnumer_dwingspan wing_taper_ratio landinggear_main_gear_location
    wing_thickness_to_chord_root wing_thickness_to_chord_tip fuselage_avg_diameter wing_span
    fuel_wing_fuel_fraction wing_center_chord) * (denom_2 wing_taper_ratio
    landinggear_main_gear_location fuselage_avg_diameter wing_span wing_center_chord)) -
    ((numer_2 wing_taper_ratio landinggear_main_gear_location wing_thickness_to_chord_root
    wing_thickness_to_chord_tip fuselage_avg_diameter wing_span fuel_wing_fuel_fraction
    wing_center_chord) * (ddenom_dwingspan wing_taper_ratio landinggear_main_gear_location
    fuselage_avg_diameter wing_span wing_center_chord))) / ((denom_2 wing_taper_ratio
    landinggear_main_gear_location fuselage_avg_diameter wing_span wing_center_chord) ^ 2)

/-- Output `fuel_wing_volume_geometric_max` of `BWBWingVolume.compute`, aviary/subsystems/geometry/gasp_based/wing.py:598 -/
noncomputable def out_fuel_wing_volume_geometric_max (wing_taper_ratio landinggear_main_gear_location wing_thickness_to_chord_root wing_thickness_to_chord_tip fuselage_avg_diameter wing_span fuel_wing_fuel_fraction wing_center_chord : ℝ) : ℝ :=
  fvolw_geom wing_taper_ratio landinggear_main_gear_location wing_thickness_to_chord_root
    wing_thickness_to_chord_tip fuselage_avg_diameter wing_span fuel_wing_fuel_fraction
    wing_center_chord

/-- Partial of `fuel_wing_volume_geometric_max` with respect to `fuel_wing_fuel_fraction` as set by `BWBWingVolume`, aviary/subsystems/geometry/gasp_based/wing.py:845 -/
noncomputable def J_fuel_wing_volume_geometric_max__fuel_wing_fuel_fraction (wing_taper_ratio landinggear_main_gear_location wing_thickness_to_chord_root wing_thickness_to_chord_tip fuselage_avg_diameter wing_span fuel_wing_fuel_fraction wing_center_chord : ℝ) : ℝ :=
  dfvolw_geom_dfuel_vol_frac wing_taper_ratio landinggear_main_gear_location
    wing_thickness_to_chord_root wing_thickness_to_chord_tip fuselage_avg_diameter wing_span
    fuel_wing_fuel_fraction wing_center_chord

/-- Partial of `fuel_wing_volume_geometric_max` with respect to `landinggear_main_gear_location` as set by `BWBWingVolume`, aviary/subsystems/geometry/gasp_based/wing.py:848 -/
noncomputable def J_fuel_wing_volume_geometric_max__landinggear_main_gear_location (wing_taper_ratio landinggear_main_gear_location wing_thickness_to_chord_root wing_thickness_to_chord_tip fuselage_avg_diameter wing_span fuel_wing_fuel_fraction wing_center_chord : ℝ) : ℝ :=
  dfvolw_geom_dloc_main_gear wing_taper_ratio landinggear_main_gear_location
    wing_thickness_to_chord_root wing_thickness_to_chord_tip fuselage_avg_diameter wing_span
    fuel_wing_fuel_fraction wing_center_chord

/-- Partial of `fuel_wing_volume_geometric_max` with respect to `wing_taper_ratio` as set by `BWBWingVolume`, aviary/subsystems/geometry/gasp_based/wing.py:851 -/
noncomputable def J_fuel_wing_volume_geometric_max__wing_taper_ratio (wing_taper_ratio landinggear_main_gear_location wing_thickness_to_chord_root wing_thickness_to_chord_tip fuselage_avg_diameter wing_span fuel_wing_fuel_fraction wing_center_chord : ℝ) : ℝ :=
  dfvolw_geom_dtaper_ratio wing_taper_ratio landinggear_main_gear_location
    wing_thickness_to_chord_root wing_thickness_to_chord_tip fuselage_avg_diameter wing_span
    fuel_wing_fuel_fraction wing_center_chord

/-- Partial of `fuel_wing_volume_geometric_max` with respect to `wing_center_chord` as set by `BWBWingVolume`, aviary/subsystems/geometry/gasp_based/wing.py:854 -/
noncomputable def J_fuel_wing_volume_geometric_max__wing_center_chord (wing_taper_ratio landinggear_main_gear_location wing_thickness_to_chord_root wing_thickness_to_chord_tip fuselage_avg_diameter wing_span fuel_wing_fuel_fraction wing_center_chord : ℝ) : ℝ :=
  dfvolw_geom_dcenter_chord_wing wing_taper_ratio landinggear_main_gear_location
    wing_thickness_to_chord_root wing_thickness_to_chord_tip fuselage_avg_diameter wing_span
    fuel_wing_fuel_fraction wing_center_chord

/-- Partial of `fuel_wing_volume_geometric_max` with respect to `wing_thickness_to_chord_root` as set by `BWBWingVolume`, aviary/subsystems/geometry/gasp_based/wing.py:857 -/
noncomputable def J_fuel_wing_volume_geometric_max__wing_thickness_to_chord_root (wing_taper_ratio landinggear_main_gear_location wing_thickness_to_chord_root wing_thickness_to_chord_tip fuselage_avg_diameter wing_span fuel_wing_fuel_fraction wing_center_chord : ℝ) : ℝ :=
  dfvolw_geom_dtc_ratio_root wing_taper_ratio landinggear_main_gear_location
    wing_thickness_to_chord_root wing_thickness_to_chord_tip fuselage_avg_diameter wing_span
    fuel_wing_fuel_fraction wing_center_chord

/-- Partial of `fuel_wing_volume_geometric_max` with respect to `wing_thickness_to_chord_tip` as set by `BWBWingVolume`, aviary/subsystems/geometry/gasp_based/wing.py:860 -/
noncomputable def J_fuel_wing_volume_geometric_max__wing_thickness_to_chord_tip (wing_taper_ratio landinggear_main_gear_location wing_thickness_to_chord_root wing_thickness_to_chord_tip fuselage_avg_diameter wing_span fuel_wing_fuel_fraction wing_center_chord : ℝ) : ℝ :=
  dfvolw_geom_dtc_ratio_tip wing_taper_ratio landinggear_main_gear_location
    wing_thickness_to_chord_root wing_thickness_to_chord_tip fuselage_avg_diameter wing_span
    fuel_wing_fuel_fraction wing_center_chord

/-- Partial of `fuel_wing_volume_geometric_max` with respect to `fuselage_avg_diameter` as set by `BWBWingVolume`, aviary/subsystems/geometry/gasp_based/wing.py:863 -/
noncomputable def J_fuel_wing_volume_geometric_max__fuselage_avg_diameter (wing_taper_ratio landinggear_main_gear_location wing_thickness_to_chord_root wing_thickness_to_chord_tip fuselage_avg_diameter wing_span fuel_wing_fuel_fraction wing_center_chord : ℝ) : ℝ :=
  dfvolw_geom_dswf wing_taper_ratio landinggear_main_gear_location wing_thickness_to_chord_root
    wing_thickness_to_chord_tip fuselage_avg_diameter wing_span fuel_wing_fuel_fraction
    wing_center_chord

/-- Partial of `fuel_wing_volume_geometric_max` with respect to `wing_span` as set by `BWBWingVolume`, aviary/subsystems/geometry/gasp_based/wing.py:866 -/
noncomputable def J_fuel_wing_volume_geometric_max__wing_span (wing_taper_ratio landinggear_main_gear_location wing_thickness_to_chord_root wing_thickness_to_chord_tip fuselage_avg_diameter wing_span fuel_wing_fuel_fraction wing_center_chord : ℝ) : ℝ :=
  dfvolw_geom_dwingspan wing_taper_ratio landinggear_main_gear_location
    wing_thickness_to_chord_root wing_thickness_to_chord_tip fuselage_avg_diameter wing_span
    fuel_wing_fuel_fraction wing_center_chord

theorem d_fuel_wing_volume_geometric_max__landinggear_main_gear_location (wing_taper_ratio
    landinggear_main_gear_location wing_thickness_to_chord_root wing_thickness_to_chord_tip
    fuselage_avg_diameter wing_span fuel_wing_fuel_fraction wing_center_chord : ℝ) (h0 :
    landinggear_main_gear_location ≠ 0) (h1 : 0 < wing_span) (h2 : 0 < ((1 / 2) * wing_span) -
    (((1 / 2) * fuselage_avg_diameter) + (if 0 < landinggear_main_gear_location then 6 else 0)))
    (h3 : 0 < (wing_center_chord + (((2 * (((1 / 2) * fuselage_avg_diameter) + (if 0 <
    landinggear_main_gear_location then 6 else 0))) * ((wing_taper_ratio * wing_center_chord) -
    wing_center_chord)) / wing_span)) + (wing_taper_ratio * wing_center_chord)) (h4 :
    wing_center_chord + (((2 * (((1 / 2) * fuselage_avg_diameter) + (if 0 <
    landinggear_main_gear_location then 6 else 0))) * ((wing_taper_ratio * wing_center_chord) -
    wing_center_chord)) / wing_span) ≠ 0) (h5 : ((1 / 2) * wing_span) - (((1 / 2) *
    fuselage_avg_diameter) + (if 0 < landinggear_main_gear_location then 6 else 0)) ≠ 0) (h6 :
    (wing_center_chord + (((2 * (((1 / 2) * fuselage_avg_diameter) + (if 0 <
    landinggear_main_gear_location then 6 else 0))) * ((wing_taper_ratio * wing_center_chord) -
    wing_center_chord)) / wing_span)) + (wing_taper_ratio * wing_center_chord) ≠ 0) (h7 :
    (wing_span - fuselage_avg_diameter) - (2 * (if 0 < landinggear_main_gear_location then 6 else
    0)) ≠ 0) (h8 : 0 < wing_taper_ratio) (h9 : 0 < wing_center_chord) (h10 : 0 < wing_center_chord
    + (((2 * (((1 / 2) * fuselage_avg_diameter) + (if 0 < landinggear_main_gear_location then 6
    else 0))) * ((wing_taper_ratio * wing_center_chord) - wing_center_chord)) / wing_span)) (h11 :
    0 < (wing_center_chord + ((((2 * (((1 / 2) * fuselage_avg_diameter) + (if 0 <
    landinggear_main_gear_location then 6 else 0))) * (wing_taper_ratio - 1)) * wing_center_chord)
    / wing_span)) + (wing_taper_ratio * wing_center_chord)) (h12 : wing_center_chord + ((((2 *
    (((1 / 2) * fuselage_avg_diameter) + (if 0 < landinggear_main_gear_location then 6 else 0))) *
    (wing_taper_ratio - 1)) * wing_center_chord) / wing_span) ≠ 0) (h13 : (wing_center_chord +
    ((((2 * (((1 / 2) * fuselage_avg_diameter) + (if 0 < landinggear_main_gear_location then 6
    else 0))) * (wing_taper_ratio - 1)) * wing_center_chord) / wing_span)) + (wing_taper_ratio *
    wing_center_chord) ≠ 0) (h14 : 0 < wing_center_chord + ((((2 * (((1 / 2) *
    fuselage_avg_diameter) + (if 0 < landinggear_main_gear_location then 6 else 0))) *
    (wing_taper_ratio - 1)) * wing_center_chord) / wing_span)) :
    HasDerivAt (fun t => out_fuel_wing_volume_geometric_max wing_taper_ratio t wing_thickness_to_chord_root wing_thickness_to_chord_tip fuselage_avg_diameter wing_span fuel_wing_fuel_fraction wing_center_chord) (J_fuel_wing_volume_geometric_max__landinggear_main_gear_location wing_taper_ratio landinggear_main_gear_location wing_thickness_to_chord_root wing_thickness_to_chord_tip fuselage_avg_diameter wing_span fuel_wing_fuel_fraction wing_center_chord) landinggear_main_gear_location := by
  have e0 : ∀ x : ℝ, 0 < x → x ^ ((3 / 2) : ℝ) = x ^ ((1 / 2) : ℝ) * x ^ 1 := fun x hx => rpow_up hx 1 (by norm_num)
  simp only [out_fuel_wing_volume_geometric_max, J_fuel_wing_volume_geometric_max__landinggear_main_gear_location, dfvolw_geom_dloc_main_gear, ddenom_dloc_main_gear, dar_nfx_dloc_main_gear, numer_2, denom_2, ar_nfx_2, dnumer_dloc_main_gear, dtaper_ratio_nfx_dloc_main_gear, dcfuel_dloc_main_gear, dsw_nfx_dloc_main_gear, slm_nfx_2, sw_nfx_2, cfuel_2, dtcm_dloc_main_gear, dtcf_dloc_main_gear, fvolw_geom, denom, ar_nfx, numer, slm_nfx, sw_nfx, cfuel, ctip, tcm, tcf, wid_grx]
  try split_ifs
  all_goals (apply hasDerivAt_of_eq; on_goal 1 => (repeat' comp_step))
  all_goals try comp_side
  all_goals try simp (disch := first | assumption | positivity) only [e0, div_mul_eq_div_div, div_half, inv_half]
  all_goals try split_ifs
  all_goals try (exfalso; linarith)
  all_goals try simp only [mul_zero, zero_mul, add_zero, zero_add, sub_zero, zero_sub, mul_one, one_mul]
  all_goals try push_cast
  all_goals comp_eq

theorem d_fuel_wing_volume_geometric_max__wing_thickness_to_chord_root (wing_taper_ratio
    landinggear_main_gear_location wing_thickness_to_chord_root wing_thickness_to_chord_tip
    fuselage_avg_diameter wing_span fuel_wing_fuel_fraction wing_center_chord : ℝ) (h0 : 0 <
    wing_span) (h1 : 0 < ((1 / 2) * wing_span) - (((1 / 2) * fuselage_avg_diameter) + (if 0 <
    landinggear_main_gear_location then 6 else 0))) (h2 : 0 < (wing_center_chord + (((2 * (((1 /
    2) * fuselage_avg_diameter) + (if 0 < landinggear_main_gear_location then 6 else 0))) *
    ((wing_taper_ratio * wing_center_chord) - wing_center_chord)) / wing_span)) +
    (wing_taper_ratio * wing_center_chord)) (h3 : wing_center_chord + (((2 * (((1 / 2) *
    fuselage_avg_diameter) + (if 0 < landinggear_main_gear_location then 6 else 0))) *
    ((wing_taper_ratio * wing_center_chord) - wing_center_chord)) / wing_span) ≠ 0) (h4 : ((1 / 2)
    * wing_span) - (((1 / 2) * fuselage_avg_diameter) + (if 0 < landinggear_main_gear_location
    then 6 else 0)) ≠ 0) (h5 : (wing_center_chord + (((2 * (((1 / 2) * fuselage_avg_diameter) +
    (if 0 < landinggear_main_gear_location then 6 else 0))) * ((wing_taper_ratio *
    wing_center_chord) - wing_center_chord)) / wing_span)) + (wing_taper_ratio *
    wing_center_chord) ≠ 0) (h6 : (wing_span - fuselage_avg_diameter) - (2 * (if 0 <
    landinggear_main_gear_location then 6 else 0)) ≠ 0) (h7 : 0 < wing_taper_ratio) (h8 : 0 <
    wing_center_chord) (h9 : 0 < wing_center_chord + (((2 * (((1 / 2) * fuselage_avg_diameter) +
    (if 0 < landinggear_main_gear_location then 6 else 0))) * ((wing_taper_ratio *
    wing_center_chord) - wing_center_chord)) / wing_span)) (h10 : 0 < (wing_center_chord + ((((2 *
    (((1 / 2) * fuselage_avg_diameter) + (if 0 < landinggear_main_gear_location then 6 else 0))) *
    (wing_taper_ratio - 1)) * wing_center_chord) / wing_span)) + (wing_taper_ratio *
    wing_center_chord)) (h11 : wing_center_chord + ((((2 * (((1 / 2) * fuselage_avg_diameter) +
    (if 0 < landinggear_main_gear_location then 6 else 0))) * (wing_taper_ratio - 1)) *
    wing_center_chord) / wing_span) ≠ 0) (h12 : (wing_center_chord + ((((2 * (((1 / 2) *
    fuselage_avg_diameter) + (if 0 < landinggear_main_gear_location then 6 else 0))) *
    (wing_taper_ratio - 1)) * wing_center_chord) / wing_span)) + (wing_taper_ratio *
    wing_center_chord) ≠ 0) (h13 : 0 < wing_center_chord + ((((2 * (((1 / 2) *
    fuselage_avg_diameter) + (if 0 < landinggear_main_gear_location then 6 else 0))) *
    (wing_taper_ratio - 1)) * wing_center_chord) / wing_span)) :
    HasDerivAt (fun t => out_fuel_wing_volume_geometric_max wing_taper_ratio landinggear_main_gear_location t wing_thickness_to_chord_tip fuselage_avg_diameter wing_span fuel_wing_fuel_fraction wing_center_chord) (J_fuel_wing_volume_geometric_max__wing_thickness_to_chord_root wing_taper_ratio landinggear_main_gear_location wing_thickness_to_chord_root wing_thickness_to_chord_tip fuselage_avg_diameter wing_span fuel_wing_fuel_fraction wing_center_chord) wing_thickness_to_chord_root := by
  have e0 : ∀ x : ℝ, 0 < x → x ^ ((3 / 2) : ℝ) = x ^ ((1 / 2) : ℝ) * x ^ 1 := fun x hx => rpow_up hx 1 (by norm_num)
  simp only [out_fuel_wing_volume_geometric_max, J_fuel_wing_volume_geometric_max__wing_thickness_to_chord_root, dfvolw_geom_dtc_ratio_root, numer_2, denom_2, ar_nfx_2, dnumer_dtc_ratio_root, slm_nfx_2, sw_nfx_2, cfuel_2, dtcm_dtc_ratio_root, dtcf_dtc_ratio_root, fvolw_geom, denom, ar_nfx, numer, slm_nfx, sw_nfx, cfuel, ctip, tcm, tcf, wid_grx]
  try split_ifs
  all_goals (apply hasDerivAt_of_eq; on_goal 1 => (repeat' comp_step))
  all_goals try comp_side
  all_goals try simp (disch := first | assumption | positivity) only [e0, div_mul_eq_div_div, div_half, inv_half]
  all_goals try split_ifs
  all_goals try (exfalso; linarith)
  all_goals try simp only [mul_zero, zero_mul, add_zero, zero_add, sub_zero, zero_sub, mul_one, one_mul]
  all_goals try push_cast
  all_goals comp_eq

theorem d_fuel_wing_volume_geometric_max__wing_thickness_to_chord_tip (wing_taper_ratio
    landinggear_main_gear_location wing_thickness_to_chord_root wing_thickness_to_chord_tip
    fuselage_avg_diameter wing_span fuel_wing_fuel_fraction wing_center_chord : ℝ) (h0 : 0 <
    wing_span) (h1 : 0 < ((1 / 2) * wing_span) - (((1 / 2) * fuselage_avg_diameter) + (if 0 <
    landinggear_main_gear_location then 6 else 0))) (h2 : 0 < (wing_center_chord + (((2 * (((1 /
    2) * fuselage_avg_diameter) + (if 0 < landinggear_main_gear_location then 6 else 0))) *
    ((wing_taper_ratio * wing_center_chord) - wing_center_chord)) / wing_span)) +
    (wing_taper_ratio * wing_center_chord)) (h3 : wing_center_chord + (((2 * (((1 / 2) *
    fuselage_avg_diameter) + (if 0 < landinggear_main_gear_location then 6 else 0))) *
    ((wing_taper_ratio * wing_center_chord) - wing_center_chord)) / wing_span) ≠ 0) (h4 : ((1 / 2)
    * wing_span) - (((1 / 2) * fuselage_avg_diameter) + (if 0 < landinggear_main_gear_location
    then 6 else 0)) ≠ 0) (h5 : (wing_center_chord + (((2 * (((1 / 2) * fuselage_avg_diameter) +
    (if 0 < landinggear_main_gear_location then 6 else 0))) * ((wing_taper_ratio *
    wing_center_chord) - wing_center_chord)) / wing_span)) + (wing_taper_ratio *
    wing_center_chord) ≠ 0) (h6 : (wing_span - fuselage_avg_diameter) - (2 * (if 0 <
    landinggear_main_gear_location then 6 else 0)) ≠ 0) (h7 : 0 < wing_taper_ratio) (h8 : 0 <
    wing_center_chord) (h9 : 0 < wing_center_chord + (((2 * (((1 / 2) * fuselage_avg_diameter) +
    (if 0 < landinggear_main_gear_location then 6 else 0))) * ((wing_taper_ratio *
    wing_center_chord) - wing_center_chord)) / wing_span)) (h10 : 0 < (wing_center_chord + ((((2 *
    (((1 / 2) * fuselage_avg_diameter) + (if 0 < landinggear_main_gear_location then 6 else 0))) *
    (wing_taper_ratio - 1)) * wing_center_chord) / wing_span)) + (wing_taper_ratio *
    wing_center_chord)) (h11 : wing_center_chord + ((((2 * (((1 / 2) * fuselage_avg_diameter) +
    (if 0 < landinggear_main_gear_location then 6 else 0))) * (wing_taper_ratio - 1)) *
    wing_center_chord) / wing_span) ≠ 0) (h12 : (wing_center_chord + ((((2 * (((1 / 2) *
    fuselage_avg_diameter) + (if 0 < landinggear_main_gear_location then 6 else 0))) *
    (wing_taper_ratio - 1)) * wing_center_chord) / wing_span)) + (wing_taper_ratio *
    wing_center_chord) ≠ 0) (h13 : 0 < wing_center_chord + ((((2 * (((1 / 2) *
    fuselage_avg_diameter) + (if 0 < landinggear_main_gear_location then 6 else 0))) *
    (wing_taper_ratio - 1)) * wing_center_chord) / wing_span)) :
    HasDerivAt (fun t => out_fuel_wing_volume_geometric_max wing_taper_ratio landinggear_main_gear_location wing_thickness_to_chord_root t fuselage_avg_diameter wing_span fuel_wing_fuel_fraction wing_center_chord) (J_fuel_wing_volume_geometric_max__wing_thickness_to_chord_tip wing_taper_ratio landinggear_main_gear_location wing_thickness_to_chord_root wing_thickness_to_chord_tip fuselage_avg_diameter wing_span fuel_wing_fuel_fraction wing_center_chord) wing_thickness_to_chord_tip := by
  have e0 : ∀ x : ℝ, 0 < x → x ^ ((3 / 2) : ℝ) = x ^ ((1 / 2) : ℝ) * x ^ 1 := fun x hx => rpow_up hx 1 (by norm_num)
  simp only [out_fuel_wing_volume_geometric_max, J_fuel_wing_volume_geometric_max__wing_thickness_to_chord_tip, dfvolw_geom_dtc_ratio_tip, numer_2, denom_2, ar_nfx_2, dnumer_dtc_ratio_tip, slm_nfx_2, sw_nfx_2, cfuel_2, dtcm_dtc_ratio_tip, dtcf_dtc_ratio_tip, fvolw_geom, denom, ar_nfx, numer, slm_nfx, sw_nfx, cfuel, ctip, tcm, tcf, wid_grx]
  try split_ifs
  all_goals (apply hasDerivAt_of_eq; on_goal 1 => (repeat' comp_step))
  all_goals try comp_side
  all_goals try simp (disch := first | assumption | positivity) only [e0, div_mul_eq_div_div, div_half, inv_half]
  all_goals try split_ifs
  all_goals try (exfalso; linarith)
  all_goals try simp only [mul_zero, zero_mul, add_zero, zero_add, sub_zero, zero_sub, mul_one, one_mul]
  all_goals try push_cast
  all_goals comp_eq

theorem d_fuel_wing_volume_geometric_max__fuel_wing_fuel_fraction (wing_taper_ratio
    landinggear_main_gear_location wing_thickness_to_chord_root wing_thickness_to_chord_tip
    fuselage_avg_diameter wing_span fuel_wing_fuel_fraction wing_center_chord : ℝ) (h0 : 0 <
    wing_span) (h1 : 0 < ((1 / 2) * wing_span) - (((1 / 2) * fuselage_avg_diameter) + (if 0 <
    landinggear_main_gear_location then 6 else 0))) (h2 : 0 < (wing_center_chord + (((2 * (((1 /
    2) * fuselage_avg_diameter) + (if 0 < landinggear_main_gear_location then 6 else 0))) *
    ((wing_taper_ratio * wing_center_chord) - wing_center_chord)) / wing_span)) +
    (wing_taper_ratio * wing_center_chord)) (h3 : wing_center_chord + (((2 * (((1 / 2) *
    fuselage_avg_diameter) + (if 0 < landinggear_main_gear_location then 6 else 0))) *
    ((wing_taper_ratio * wing_center_chord) - wing_center_chord)) / wing_span) ≠ 0) (h4 : ((1 / 2)
    * wing_span) - (((1 / 2) * fuselage_avg_diameter) + (if 0 < landinggear_main_gear_location
    then 6 else 0)) ≠ 0) (h5 : (wing_center_chord + (((2 * (((1 / 2) * fuselage_avg_diameter) +
    (if 0 < landinggear_main_gear_location then 6 else 0))) * ((wing_taper_ratio *
    wing_center_chord) - wing_center_chord)) / wing_span)) + (wing_taper_ratio *
    wing_center_chord) ≠ 0) (h6 : (wing_span - fuselage_avg_diameter) - (2 * (if 0 <
    landinggear_main_gear_location then 6 else 0)) ≠ 0) (h7 : 0 < wing_taper_ratio) (h8 : 0 <
    wing_center_chord) (h9 : 0 < wing_center_chord + (((2 * (((1 / 2) * fuselage_avg_diameter) +
    (if 0 < landinggear_main_gear_location then 6 else 0))) * ((wing_taper_ratio *
    wing_center_chord) - wing_center_chord)) / wing_span)) (h10 : 0 < (wing_center_chord + ((((2 *
    (((1 / 2) * fuselage_avg_diameter) + (if 0 < landinggear_main_gear_location then 6 else 0))) *
    (wing_taper_ratio - 1)) * wing_center_chord) / wing_span)) + (wing_taper_ratio *
    wing_center_chord)) (h11 : wing_center_chord + ((((2 * (((1 / 2) * fuselage_avg_diameter) +
    (if 0 < landinggear_main_gear_location then 6 else 0))) * (wing_taper_ratio - 1)) *
    wing_center_chord) / wing_span) ≠ 0) (h12 : (wing_center_chord + ((((2 * (((1 / 2) *
    fuselage_avg_diameter) + (if 0 < landinggear_main_gear_location then 6 else 0))) *
    (wing_taper_ratio - 1)) * wing_center_chord) / wing_span)) + (wing_taper_ratio *
    wing_center_chord) ≠ 0) (h13 : 0 < wing_center_chord + ((((2 * (((1 / 2) *
    fuselage_avg_diameter) + (if 0 < landinggear_main_gear_location then 6 else 0))) *
    (wing_taper_ratio - 1)) * wing_center_chord) / wing_span)) :
    HasDerivAt (fun t => out_fuel_wing_volume_geometric_max wing_taper_ratio landinggear_main_gear_location wing_thickness_to_chord_root wing_thickness_to_chord_tip fuselage_avg_diameter wing_span t wing_center_chord) (J_fuel_wing_volume_geometric_max__fuel_wing_fuel_fraction wing_taper_ratio landinggear_main_gear_location wing_thickness_to_chord_root wing_thickness_to_chord_tip fuselage_avg_diameter wing_span fuel_wing_fuel_fraction wing_center_chord) fuel_wing_fuel_fraction := by
  have e0 : ∀ x : ℝ, 0 < x → x ^ ((3 / 2) : ℝ) = x ^ ((1 / 2) : ℝ) * x ^ 1 := fun x hx => rpow_up hx 1 (by norm_num)
  simp only [out_fuel_wing_volume_geometric_max, J_fuel_wing_volume_geometric_max__fuel_wing_fuel_fraction, dfvolw_geom_dfuel_vol_frac, numer_2, denom_2, ar_nfx_2, dnumer_dfuel_vol_frac, slm_nfx_2, sw_nfx_2, cfuel_2, fvolw_geom, denom, ar_nfx, numer, slm_nfx, sw_nfx, cfuel, ctip, tcm, tcf, wid_grx]
  try split_ifs
  all_goals (apply hasDerivAt_of_eq; on_goal 1 => (repeat' comp_step))
  all_goals try comp_side
  all_goals try simp (disch := first | assumption | positivity) only [e0, div_mul_eq_div_div, div_half, inv_half]
  all_goals try split_ifs
  all_goals try (exfalso; linarith)
  all_goals try simp only [mul_zero, zero_mul, add_zero, zero_add, sub_zero, zero_sub, mul_one, one_mul]
  all_goals try push_cast
  all_goals comp_eq

/-- Partial derivatives of `BWBWingVolume` that are proved correct (the rest is listed in the header). -/
theorem partials_partial (wing_taper_ratio landinggear_main_gear_location
    wing_thickness_to_chord_root wing_thickness_to_chord_tip fuselage_avg_diameter wing_span
    fuel_wing_fuel_fraction wing_center_chord : ℝ) (h0 : landinggear_main_gear_location ≠ 0) (h1 :
    0 < wing_span) (h2 : 0 < ((1 / 2) * wing_span) - (((1 / 2) * fuselage_avg_diameter) + (if 0 <
    landinggear_main_gear_location then 6 else 0))) (h3 : 0 < (wing_center_chord + (((2 * (((1 /
    2) * fuselage_avg_diameter) + (if 0 < landinggear_main_gear_location then 6 else 0))) *
    ((wing_taper_ratio * wing_center_chord) - wing_center_chord)) / wing_span)) +
    (wing_taper_ratio * wing_center_chord)) (h4 : wing_center_chord + (((2 * (((1 / 2) *
    fuselage_avg_diameter) + (if 0 < landinggear_main_gear_location then 6 else 0))) *
    ((wing_taper_ratio * wing_center_chord) - wing_center_chord)) / wing_span) ≠ 0) (h5 : ((1 / 2)
    * wing_span) - (((1 / 2) * fuselage_avg_diameter) + (if 0 < landinggear_main_gear_location
    then 6 else 0)) ≠ 0) (h6 : (wing_center_chord + (((2 * (((1 / 2) * fuselage_avg_diameter) +
    (if 0 < landinggear_main_gear_location then 6 else 0))) * ((wing_taper_ratio *
    wing_center_chord) - wing_center_chord)) / wing_span)) + (wing_taper_ratio *
    wing_center_chord) ≠ 0) (h7 : (wing_span - fuselage_avg_diameter) - (2 * (if 0 <
    landinggear_main_gear_location then 6 else 0)) ≠ 0) (h8 : 0 < wing_taper_ratio) (h9 : 0 <
    wing_center_chord) (h10 : 0 < wing_center_chord + (((2 * (((1 / 2) * fuselage_avg_diameter) +
    (if 0 < landinggear_main_gear_location then 6 else 0))) * ((wing_taper_ratio *
    wing_center_chord) - wing_center_chord)) / wing_span)) (h11 : 0 < (wing_center_chord + ((((2 *
    (((1 / 2) * fuselage_avg_diameter) + (if 0 < landinggear_main_gear_location then 6 else 0))) *
    (wing_taper_ratio - 1)) * wing_center_chord) / wing_span)) + (wing_taper_ratio *
    wing_center_chord)) (h12 : wing_center_chord + ((((2 * (((1 / 2) * fuselage_avg_diameter) +
    (if 0 < landinggear_main_gear_location then 6 else 0))) * (wing_taper_ratio - 1)) *
    wing_center_chord) / wing_span) ≠ 0) (h13 : (wing_center_chord + ((((2 * (((1 / 2) *
    fuselage_avg_diameter) + (if 0 < landinggear_main_gear_location then 6 else 0))) *
    (wing_taper_ratio - 1)) * wing_center_chord) / wing_span)) + (wing_taper_ratio *
    wing_center_chord) ≠ 0) (h14 : 0 < wing_center_chord + ((((2 * (((1 / 2) *
    fuselage_avg_diameter) + (if 0 < landinggear_main_gear_location then 6 else 0))) *
    (wing_taper_ratio - 1)) * wing_center_chord) / wing_span)) :
    HasDerivAt (fun t => out_fuel_wing_volume_geometric_max wing_taper_ratio t
      wing_thickness_to_chord_root wing_thickness_to_chord_tip fuselage_avg_diameter wing_span
      fuel_wing_fuel_fraction wing_center_chord)
      (J_fuel_wing_volume_geometric_max__landinggear_main_gear_location wing_taper_ratio
      landinggear_main_gear_location wing_thickness_to_chord_root wing_thickness_to_chord_tip
      fuselage_avg_diameter wing_span fuel_wing_fuel_fraction wing_center_chord)
      landinggear_main_gear_location ∧
    HasDerivAt (fun t => out_fuel_wing_volume_geometric_max wing_taper_ratio
      landinggear_main_gear_location t wing_thickness_to_chord_tip fuselage_avg_diameter wing_span
      fuel_wing_fuel_fraction wing_center_chord)
      (J_fuel_wing_volume_geometric_max__wing_thickness_to_chord_root wing_taper_ratio
      landinggear_main_gear_location wing_thickness_to_chord_root wing_thickness_to_chord_tip
      fuselage_avg_diameter wing_span fuel_wing_fuel_fraction wing_center_chord)
      wing_thickness_to_chord_root ∧
    HasDerivAt (fun t => out_fuel_wing_volume_geometric_max wing_taper_ratio
      landinggear_main_gear_location wing_thickness_to_chord_root t fuselage_avg_diameter
      wing_span fuel_wing_fuel_fraction wing_center_chord)
      (J_fuel_wing_volume_geometric_max__wing_thickness_to_chord_tip wing_taper_ratio
      landinggear_main_gear_location wing_thickness_to_chord_root wing_thickness_to_chord_tip
      fuselage_avg_diameter wing_span fuel_wing_fuel_fraction wing_center_chord)
      wing_thickness_to_chord_tip ∧
    HasDerivAt (fun t => out_fuel_wing_volume_geometric_max wing_taper_ratio
      landinggear_main_gear_location wing_thickness_to_chord_root wing_thickness_to_chord_tip
      fuselage_avg_diameter wing_span t wing_center_chord)
      (J_fuel_wing_volume_geometric_max__fuel_wing_fuel_fraction wing_taper_ratio
      landinggear_main_gear_location wing_thickness_to_chord_root wing_thickness_to_chord_tip
      fuselage_avg_diameter wing_span fuel_wing_fuel_fraction wing_center_chord)
      fuel_wing_fuel_fraction :=
  ⟨d_fuel_wing_volume_geometric_max__landinggear_main_gear_location _ _ _ _ _ _ _ _ h0 h1 h2 h3 h4
    h5 h6 h7 h8 h9 h10 h11 h12 h13 h14,
    d_fuel_wing_volume_geometric_max__wing_thickness_to_chord_root _ _ _ _ _ _ _ _ h1 h2 h3 h4 h5
    h6 h7 h8 h9 h10 h11 h12 h13 h14, d_fuel_wing_volume_geometric_max__wing_thickness_to_chord_tip
    _ _ _ _ _ _ _ _ h1 h2 h3 h4 h5 h6 h7 h8 h9 h10 h11 h12 h13 h14,
    d_fuel_wing_volume_geometric_max__fuel_wing_fuel_fraction _ _ _ _ _ _ _ _ h1 h2 h3 h4 h5 h6 h7
    h8 h9 h10 h11 h12 h13 h14⟩

example : ∃ wing_taper_ratio landinggear_main_gear_location wing_thickness_to_chord_root
      wing_thickness_to_chord_tip fuselage_avg_diameter wing_span fuel_wing_fuel_fraction
      wing_center_chord : ℝ,
      landinggear_main_gear_location ≠ 0 ∧
      0 < wing_span ∧
      0 < ((1 / 2) * wing_span) - (((1 / 2) * fuselage_avg_diameter) + (if 0 <
        landinggear_main_gear_location then 6 else 0)) ∧
      0 < (wing_center_chord + (((2 * (((1 / 2) * fuselage_avg_diameter) + (if 0 <
        landinggear_main_gear_location then 6 else 0))) * ((wing_taper_ratio * wing_center_chord)
        - wing_center_chord)) / wing_span)) + (wing_taper_ratio * wing_center_chord) ∧
      wing_center_chord + (((2 * (((1 / 2) * fuselage_avg_diameter) + (if 0 <
        landinggear_main_gear_location then 6 else 0))) * ((wing_taper_ratio * wing_center_chord)
        - wing_center_chord)) / wing_span) ≠ 0 ∧
      ((1 / 2) * wing_span) - (((1 / 2) * fuselage_avg_diameter) + (if 0 <
        landinggear_main_gear_location then 6 else 0)) ≠ 0 ∧
      (wing_center_chord + (((2 * (((1 / 2) * fuselage_avg_diameter) + (if 0 <
        landinggear_main_gear_location then 6 else 0))) * ((wing_taper_ratio * wing_center_chord)
        - wing_center_chord)) / wing_span)) + (wing_taper_ratio * wing_center_chord) ≠ 0 ∧
      (wing_span - fuselage_avg_diameter) - (2 * (if 0 < landinggear_main_gear_location then 6 else 0))
        ≠ 0 ∧
      0 < wing_taper_ratio ∧
      0 < wing_center_chord ∧
      0 < wing_center_chord + (((2 * (((1 / 2) * fuselage_avg_diameter) + (if 0 <
        landinggear_main_gear_location then 6 else 0))) * ((wing_taper_ratio * wing_center_chord)
        - wing_center_chord)) / wing_span) ∧
      0 < (wing_center_chord + ((((2 * (((1 / 2) * fuselage_avg_diameter) + (if 0 <
        landinggear_main_gear_location then 6 else 0))) * (wing_taper_ratio - 1)) *
        wing_center_chord) / wing_span)) + (wing_taper_ratio * wing_center_chord) ∧
      wing_center_chord + ((((2 * (((1 / 2) * fuselage_avg_diameter) + (if 0 <
        landinggear_main_gear_location then 6 else 0))) * (wing_taper_ratio - 1)) *
        wing_center_chord) / wing_span) ≠ 0 ∧
      (wing_center_chord + ((((2 * (((1 / 2) * fuselage_avg_diameter) + (if 0 <
        landinggear_main_gear_location then 6 else 0))) * (wing_taper_ratio - 1)) *
        wing_center_chord) / wing_span)) + (wing_taper_ratio * wing_center_chord) ≠ 0 ∧
      0 < wing_center_chord + ((((2 * (((1 / 2) * fuselage_avg_diameter) + (if 0 <
        landinggear_main_gear_location then 6 else 0))) * (wing_taper_ratio - 1)) *
        wing_center_chord) / wing_span) :=
  ⟨1 / 100, 1 / 100, 0, 1 / 100, 1, 1000, 0, 1000, by comp_example, by comp_example, by
    comp_example, by comp_example, by comp_example, by comp_example, by comp_example, by
    comp_example, by comp_example, by comp_example, by comp_example, by comp_example, by
    comp_example, by comp_example, by comp_example⟩

end Verif.Comp.GeometryGaspBasedWing.BWBWingVolume_no_winghasfold_no_smooth

namespace Verif.Comp.GeometryGaspBasedWing.ExposedWing_blendedwingbody
open Real

/-- aviary/subsystems/geometry/gasp_based/wing.py:1820 -/
noncomputable abbrev sqt (wing_vertical_mount_location : ℝ) : ℝ :=
  sqrt ((1 / 4) - (((1 / 2) - wing_vertical_mount_location) ^ 2))

/-- aviary/subsystems/geometry/gasp_based/wing.py:1684 -/
noncomputable abbrev y : ℝ := sqrt (19 / 400)

/-- aviary/subsystems/geometry/gasp_based/wing.py:1691 -/
noncomputable abbrev dy : ℝ := (9 / 20) / (sqrt (19 / 400))

/-- aviary/subsystems/geometry/gasp_based/wing.py:1698 -/
noncomputable abbrev d2y : ℝ := (-(1 / 4)) / ((sqrt (19 / 400)) ^ 3)

/-- aviary/subsystems/geometry/gasp_based/wing.py:1713 -/
noncomputable abbrev d1 : ℝ := ((y - ((1 / 20) * dy)) + ((1 / 800) * d2y)) / (1 / 8000)

/-- aviary/subsystems/geometry/gasp_based/wing.py:1714 -/
noncomputable abbrev c1 : ℝ := (d2y - ((6 * d1) * (1 / 20))) / 2

/-- aviary/subsystems/geometry/gasp_based/wing.py:1715 -/
noncomputable abbrev b1 : ℝ := (dy - ((1 / 20) * d2y)) + ((3 * d1) * (1 / 400))

/-- aviary/subsystems/geometry/gasp_based/wing.py:1717 -/
noncomputable abbrev y_2 (wing_vertical_mount_location : ℝ) : ℝ :=
  ((0 + (b1 * wing_vertical_mount_location)) + (c1 * (wing_vertical_mount_location ^ 2))) + (d1
    * (wing_vertical_mount_location ^ 3))

/-- aviary/subsystems/geometry/gasp_based/wing.py:1691 -/
noncomputable abbrev dy_2 : ℝ := (-(9 / 20)) / (sqrt (19 / 400))

/-- aviary/subsystems/geometry/gasp_based/wing.py:1745 -/
noncomputable abbrev d2 : ℝ :=
  (-((y + (dy_2 * (1 / 20))) + (((1 / 2) * d2y) * (1 / 400)))) / (1 / 8000)

/-- aviary/subsystems/geometry/gasp_based/wing.py:1746 -/
noncomputable abbrev c2 : ℝ := (d2y - ((6 * d2) * (19 / 20))) / 2

/-- aviary/subsystems/geometry/gasp_based/wing.py:1747 -/
noncomputable abbrev b2 : ℝ := (dy_2 - (d2y * (19 / 20))) + ((3 * d2) * (361 / 400))

/-- aviary/subsystems/geometry/gasp_based/wing.py:1748 -/
noncomputable abbrev a2 : ℝ := -((b2 + c2) + d2)

/-- aviary/subsystems/geometry/gasp_based/wing.py:1749 -/
noncomputable abbrev y_3 (wing_vertical_mount_location : ℝ) : ℝ :=
  ((a2 + (b2 * wing_vertical_mount_location)) + (c2 * (wing_vertical_mount_location ^ 2))) + (d2
    * (wing_vertical_mount_location ^ 3))

/-- aviary/subsystems/geometry/gasp_based/wing.py:1821 -/
noncomputable abbrev sqt_2 (wing_vertical_mount_location : ℝ) : ℝ :=
  if (0 ≤ wing_vertical_mount_location ∧ wing_vertical_mount_location < (1 / 20)) then (y_2
    wing_vertical_mount_location) else (y_3 wing_vertical_mount_location)

/-- aviary/subsystems/geometry/gasp_based/wing.py:1819 -/
noncomputable abbrev sqt_3 (wing_vertical_mount_location : ℝ) : ℝ :=
  if ((1 / 20) ≤ wing_vertical_mount_location ∧ wing_vertical_mount_location ≤ (19 / 20)) then
    (sqt wing_vertical_mount_location) else (sqt_2 wing_vertical_mount_location)

/-- aviary/subsystems/geometry/gasp_based/wing.py:1829 -/
noncomputable abbrev cabin_height (fuselage_avg_diameter fuselage_height_to_width_ratio : ℝ) : ℝ :=
  fuselage_avg_diameter * fuselage_height_to_width_ratio

/-- aviary/subsystems/geometry/gasp_based/wing.py:1830 -/
noncomputable abbrev b_fus (wing_vertical_mount_location fuselage_avg_diameter fuselage_height_to_width_ratio : ℝ) : ℝ :=
  ((1 / 2) * (fuselage_avg_diameter - (cabin_height fuselage_avg_diameter
    fuselage_height_to_width_ratio))) + ((cabin_height fuselage_avg_diameter
    fuselage_height_to_width_ratio) * (sqt_3 wing_vertical_mount_location))

/-- aviary/subsystems/geometry/gasp_based/wing.py:1844 -/
noncomputable abbrev root_chord_wing (wing_span wing_area wing_taper_ratio : ℝ) : ℝ :=
  (2 * wing_area) / (wing_span * (1 + wing_taper_ratio))

/-- aviary/subsystems/geometry/gasp_based/wing.py:1845 -/
noncomputable abbrev tip_chord (wing_span wing_area wing_taper_ratio : ℝ) : ℝ :=
  wing_taper_ratio * (root_chord_wing wing_span wing_area wing_taper_ratio)

/-- aviary/subsystems/geometry/gasp_based/wing.py:1846 -/
noncomputable abbrev c_fus (wing_vertical_mount_location fuselage_avg_diameter fuselage_height_to_width_ratio wing_span wing_area wing_taper_ratio : ℝ) : ℝ :=
  (root_chord_wing wing_span wing_area wing_taper_ratio) + (((2 * (b_fus
    wing_vertical_mount_location fuselage_avg_diameter fuselage_height_to_width_ratio)) *
    ((tip_chord wing_span wing_area wing_taper_ratio) - (root_chord_wing wing_span wing_area
    wing_taper_ratio))) / wing_span)

/-- aviary/subsystems/geometry/gasp_based/wing.py:1848 -/
noncomputable abbrev exp_wing_area (wing_vertical_mount_location fuselage_avg_diameter fuselage_height_to_width_ratio wing_span wing_area wing_taper_ratio : ℝ) : ℝ :=
  ((wing_span / 2) - (b_fus wing_vertical_mount_location fuselage_avg_diameter
    fuselage_height_to_width_ratio)) * ((c_fus wing_vertical_mount_location
    fuselage_avg_diameter fuselage_height_to_width_ratio wing_span wing_area wing_taper_ratio) +
    (tip_chord wing_span wing_area wing_taper_ratio))

/-- aviary/subsystems/geometry/gasp_based/wing.py:1690 -/
noncomputable abbrev diff (wing_vertical_mount_location : ℝ) : ℝ :=
  (1 / 2) - wing_vertical_mount_location

/-- aviary/subsystems/geometry/gasp_based/wing.py:1691 -/
noncomputable abbrev dy_3 (wing_vertical_mount_location : ℝ) : ℝ :=
  ((1 / 2) - wing_vertical_mount_location) / (sqrt ((1 / 4) - ((diff
    wing_vertical_mount_location) ^ 2)))

/-- aviary/subsystems/geometry/gasp_based/wing.py:1729 -/
noncomputable abbrev dy_4 (wing_vertical_mount_location : ℝ) : ℝ :=
  (b1 + ((2 * c1) * wing_vertical_mount_location)) + ((3 * d1) * (wing_vertical_mount_location ^
    2))

/-- aviary/subsystems/geometry/gasp_based/wing.py:1762 -/
noncomputable abbrev dy_5 (wing_vertical_mount_location : ℝ) : ℝ :=
  (b2 + ((2 * c2) * wing_vertical_mount_location)) + ((3 * d2) * (wing_vertical_mount_location ^
    2))

/-- aviary/subsystems/geometry/gasp_based/wing.py:1861 -/
noncomputable abbrev d_sqt (wing_vertical_mount_location : ℝ) : ℝ :=
  if (0 ≤ wing_vertical_mount_location ∧ wing_vertical_mount_location < (1 / 20)) then (dy_4
    wing_vertical_mount_location) else (dy_5 wing_vertical_mount_location)

/-- aviary/subsystems/geometry/gasp_based/wing.py:1858 -/
noncomputable abbrev d_sqt_2 (wing_vertical_mount_location : ℝ) : ℝ :=
  if ((1 / 20) ≤ wing_vertical_mount_location ∧ wing_vertical_mount_location ≤ (19 / 20)) then
    (dy_3 wing_vertical_mount_location) else (d_sqt wing_vertical_mount_location)

/-- aviary/subsystems/geometry/gasp_based/wing.py:1885 -/
noncomputable abbrev d_b_fus_d_hwing (wing_vertical_mount_location fuselage_avg_diameter fuselage_height_to_width_ratio : ℝ) : ℝ :=
  (fuselage_avg_diameter * fuselage_height_to_width_ratio) * (d_sqt_2
    wing_vertical_mount_location)

/-- aviary/subsystems/geometry/gasp_based/wing.py:1886 -/
noncomputable abbrev d_b_fus_d_body_width (wing_vertical_mount_location fuselage_height_to_width_ratio : ℝ) : ℝ :=
  ((1 / 2) * (1 - fuselage_height_to_width_ratio)) + (fuselage_height_to_width_ratio * (sqt_3
    wing_vertical_mount_location))

/-- aviary/subsystems/geometry/gasp_based/wing.py:1887 -/
noncomputable abbrev d_b_fus_d_height_to_width (wing_vertical_mount_location fuselage_avg_diameter : ℝ) : ℝ :=
  ((-(1 / 2)) * fuselage_avg_diameter) + (fuselage_avg_diameter * (sqt_3
    wing_vertical_mount_location))

/-- aviary/subsystems/geometry/gasp_based/wing.py:1888 -/
noncomputable abbrev d_c_fus_d_height_to_width (wing_vertical_mount_location fuselage_avg_diameter wing_span wing_area wing_taper_ratio : ℝ) : ℝ :=
  ((((4 * (d_b_fus_d_height_to_width wing_vertical_mount_location fuselage_avg_diameter)) *
    (wing_taper_ratio - 1)) / (wing_taper_ratio + 1)) * wing_area) / (wing_span ^ 2)

/-- aviary/subsystems/geometry/gasp_based/wing.py:1897 -/
noncomputable abbrev d_exp_area_d_height_to_width (wing_vertical_mount_location fuselage_avg_diameter fuselage_height_to_width_ratio wing_span wing_area wing_taper_ratio : ℝ) : ℝ :=
  (((-(d_b_fus_d_height_to_width wing_vertical_mount_location fuselage_avg_diameter)) * (c_fus
    wing_vertical_mount_location fuselage_avg_diameter fuselage_height_to_width_ratio wing_span
    wing_area wing_taper_ratio)) + (((wing_span * (1 / 2)) - (b_fus wing_vertical_mount_location
    fuselage_avg_diameter fuselage_height_to_width_ratio)) * (d_c_fus_d_height_to_width
    wing_vertical_mount_location fuselage_avg_diameter wing_span wing_area wing_taper_ratio))) -
    ((((((d_b_fus_d_height_to_width wing_vertical_mount_location fuselage_avg_diameter) * 2) *
    wing_area) * wing_taper_ratio) / wing_span) / (1 + wing_taper_ratio))

/-- aviary/subsystems/geometry/gasp_based/wing.py:1915 -/
noncomputable abbrev d_c_fus_d_hwing (wing_vertical_mount_location fuselage_avg_diameter fuselage_height_to_width_ratio wing_span wing_area wing_taper_ratio : ℝ) : ℝ :=
  ((((4 * (d_b_fus_d_hwing wing_vertical_mount_location fuselage_avg_diameter
    fuselage_height_to_width_ratio)) * (wing_taper_ratio - 1)) / (wing_taper_ratio + 1)) *
    wing_area) / (wing_span ^ 2)

/-- aviary/subsystems/geometry/gasp_based/wing.py:1923 -/
noncomputable abbrev d_c_fus_d_body_width (wing_vertical_mount_location fuselage_height_to_width_ratio wing_span wing_area wing_taper_ratio : ℝ) : ℝ :=
  ((((4 * (d_b_fus_d_body_width wing_vertical_mount_location fuselage_height_to_width_ratio)) *
    (wing_taper_ratio - 1)) / (wing_taper_ratio + 1)) * wing_area) / (wing_span ^ 2)

/-- aviary/subsystems/geometry/gasp_based/wing.py:1931 -/
noncomputable abbrev d_c_fus_d_wing_area (wing_vertical_mount_location fuselage_avg_diameter fuselage_height_to_width_ratio wing_span wing_taper_ratio : ℝ) : ℝ :=
  (2 / (1 + wing_taper_ratio)) * ((1 / wing_span) + ((((b_fus wing_vertical_mount_location
    fuselage_avg_diameter fuselage_height_to_width_ratio) * 2) * (wing_taper_ratio - 1)) /
    (wing_span ^ 2)))

/-- aviary/subsystems/geometry/gasp_based/wing.py:1936 -/
noncomputable abbrev d_c_fus_d_wingspan (wing_vertical_mount_location fuselage_avg_diameter fuselage_height_to_width_ratio wing_span wing_area wing_taper_ratio : ℝ) : ℝ :=
  (((-2) * wing_area) / (1 + wing_taper_ratio)) * ((1 / (wing_span ^ 2)) + ((((b_fus
    wing_vertical_mount_location fuselage_avg_diameter fuselage_height_to_width_ratio) * 4) *
    (wing_taper_ratio - 1)) / (wing_span ^ 3)))

/-- aviary/subsystems/geometry/gasp_based/wing.py:1942 -/
noncomputable abbrev d_c_fus_d_taper_ratio (wing_vertical_mount_location fuselage_avg_diameter fuselage_height_to_width_ratio wing_span wing_area wing_taper_ratio : ℝ) : ℝ :=
  ((((-2) * wing_area) / ((1 + wing_taper_ratio) ^ 2)) / wing_span) + (((((b_fus
    wing_vertical_mount_location fuselage_avg_diameter fuselage_height_to_width_ratio) * 8) *
    wing_area) / (wing_span ^ 2)) / ((wing_taper_ratio + 1) ^ 2))

/-- aviary/subsystems/geometry/gasp_based/wing.py:1947 -/
noncomputable abbrev d_exp_area_d_hwing (wing_vertical_mount_location fuselage_avg_diameter fuselage_height_to_width_ratio wing_span wing_area wing_taper_ratio : ℝ) : ℝ :=
  (((-(d_b_fus_d_hwing wing_vertical_mount_location fuselage_avg_diameter
    fuselage_height_to_width_ratio)) * (c_fus wing_vertical_mount_location fuselage_avg_diameter
    fuselage_height_to_width_ratio wing_span wing_area wing_taper_ratio)) + (((wing_span * (1 /
    2)) - (b_fus wing_vertical_mount_location fuselage_avg_diameter
    fuselage_height_to_width_ratio)) * (d_c_fus_d_hwing wing_vertical_mount_location
    fuselage_avg_diameter fuselage_height_to_width_ratio wing_span wing_area wing_taper_ratio)))
    - ((((((d_b_fus_d_hwing wing_vertical_mount_location fuselage_avg_diameter
    fuselage_height_to_width_ratio) * 2) * wing_area) * wing_taper_ratio) / wing_span) / (1 +
    wing_taper_ratio))

/-- aviary/subsystems/geometry/gasp_based/wing.py:1954 -/
noncomputable abbrev d_exp_area_d_body_width (wing_vertical_mount_location fuselage_avg_diameter fuselage_height_to_width_ratio wing_span wing_area wing_taper_ratio : ℝ) : ℝ :=
  (((-(d_b_fus_d_body_width wing_vertical_mount_location fuselage_height_to_width_ratio)) *
    (c_fus wing_vertical_mount_location fuselage_avg_diameter fuselage_height_to_width_ratio
    wing_span wing_area wing_taper_ratio)) + (((wing_span * (1 / 2)) - (b_fus
    wing_vertical_mount_location fuselage_avg_diameter fuselage_height_to_width_ratio)) *
    (d_c_fus_d_body_width wing_vertical_mount_location fuselage_height_to_width_ratio wing_span
    wing_area wing_taper_ratio))) - ((((((d_b_fus_d_body_width wing_vertical_mount_location
    fuselage_height_to_width_ratio) * 2) * wing_area) * wing_taper_ratio) / wing_span) / (1 +
    wing_taper_ratio))

/-- aviary/subsystems/geometry/gasp_based/wing.py:1961 -/
noncomputable abbrev d_exp_area_d_wingspan (wing_vertical_mount_location fuselage_avg_diameter fuselage_height_to_width_ratio wing_span wing_area wing_taper_ratio : ℝ) : ℝ :=
  (((1 / 2) * (c_fus wing_vertical_mount_location fuselage_avg_diameter
    fuselage_height_to_width_ratio wing_span wing_area wing_taper_ratio)) + ((((1 / 2) *
    wing_span) - (b_fus wing_vertical_mount_location fuselage_avg_diameter
    fuselage_height_to_width_ratio)) * (d_c_fus_d_wingspan wing_vertical_mount_location
    fuselage_avg_diameter fuselage_height_to_width_ratio wing_span wing_area wing_taper_ratio)))
    + ((((((b_fus wing_vertical_mount_location fuselage_avg_diameter
    fuselage_height_to_width_ratio) * 2) * wing_area) * wing_taper_ratio) / (wing_span ^ 2)) /
    (1 + wing_taper_ratio))

/-- aviary/subsystems/geometry/gasp_based/wing.py:1968 -/
noncomputable abbrev d_exp_area_d_taper_ratio (wing_vertical_mount_location fuselage_avg_diameter fuselage_height_to_width_ratio wing_span wing_area wing_taper_ratio : ℝ) : ℝ :=
  (((((1 / 2) * wing_span) - (b_fus wing_vertical_mount_location fuselage_avg_diameter
    fuselage_height_to_width_ratio)) * (d_c_fus_d_taper_ratio wing_vertical_mount_location
    fuselage_avg_diameter fuselage_height_to_width_ratio wing_span wing_area wing_taper_ratio))
    + (wing_area / ((1 + wing_taper_ratio) ^ 2))) - (((((b_fus wing_vertical_mount_location
    fuselage_avg_diameter fuselage_height_to_width_ratio) * 2) * wing_area) / wing_span) / ((1 +
    wing_taper_ratio) ^ 2))

/-- aviary/subsystems/geometry/gasp_based/wing.py:1975 -/
noncomputable abbrev d_exp_area_d_wing_area (wing_vertical_mount_location fuselage_avg_diameter fuselage_height_to_width_ratio wing_span wing_taper_ratio : ℝ) : ℝ :=
  (((((1 / 2) * wing_span) - (b_fus wing_vertical_mount_location fuselage_avg_diameter
    fuselage_height_to_width_ratio)) * (d_c_fus_d_wing_area wing_vertical_mount_location
    fuselage_avg_diameter fuselage_height_to_width_ratio wing_span wing_taper_ratio)) +
    (wing_taper_ratio / (1 + wing_taper_ratio))) - (((((b_fus wing_vertical_mount_location
    fuselage_avg_diameter fuselage_height_to_width_ratio) * 2) * wing_taper_ratio) / wing_span)
    / (1 + wing_taper_ratio))

/-- Output `wing_exposed_area` of `ExposedWing.compute`, aviary/subsystems/geometry/gasp_based/wing.py:1849 -/
noncomputable def out_wing_exposed_area (wing_vertical_mount_location fuselage_avg_diameter fuselage_height_to_width_ratio wing_span wing_area wing_taper_ratio : ℝ) : ℝ :=
  exp_wing_area wing_vertical_mount_location fuselage_avg_diameter
    fuselage_height_to_width_ratio wing_span wing_area wing_taper_ratio

/-- Partial of `wing_exposed_area` with respect to `fuselage_height_to_width_ratio` as set by `ExposedWing`, aviary/subsystems/geometry/gasp_based/wing.py:1907 -/
noncomputable def J_wing_exposed_area__fuselage_height_to_width_ratio (wing_vertical_mount_location fuselage_avg_diameter fuselage_height_to_width_ratio wing_span wing_area wing_taper_ratio : ℝ) : ℝ :=
  d_exp_area_d_height_to_width wing_vertical_mount_location fuselage_avg_diameter
    fuselage_height_to_width_ratio wing_span wing_area wing_taper_ratio

/-- Partial of `wing_exposed_area` with respect to `wing_vertical_mount_location` as set by `ExposedWing`, aviary/subsystems/geometry/gasp_based/wing.py:1952 -/
noncomputable def J_wing_exposed_area__wing_vertical_mount_location (wing_vertical_mount_location fuselage_avg_diameter fuselage_height_to_width_ratio wing_span wing_area wing_taper_ratio : ℝ) : ℝ :=
  d_exp_area_d_hwing wing_vertical_mount_location fuselage_avg_diameter
    fuselage_height_to_width_ratio wing_span wing_area wing_taper_ratio

/-- Partial of `wing_exposed_area` with respect to `fuselage_avg_diameter` as set by `ExposedWing`, aviary/subsystems/geometry/gasp_based/wing.py:1959 -/
noncomputable def J_wing_exposed_area__fuselage_avg_diameter (wing_vertical_mount_location fuselage_avg_diameter fuselage_height_to_width_ratio wing_span wing_area wing_taper_ratio : ℝ) : ℝ :=
  d_exp_area_d_body_width wing_vertical_mount_location fuselage_avg_diameter
    fuselage_height_to_width_ratio wing_span wing_area wing_taper_ratio

/-- Partial of `wing_exposed_area` with respect to `wing_span` as set by `ExposedWing`, aviary/subsystems/geometry/gasp_based/wing.py:1966 -/
noncomputable def J_wing_exposed_area__wing_span (wing_vertical_mount_location fuselage_avg_diameter fuselage_height_to_width_ratio wing_span wing_area wing_taper_ratio : ℝ) : ℝ :=
  d_exp_area_d_wingspan wing_vertical_mount_location fuselage_avg_diameter
    fuselage_height_to_width_ratio wing_span wing_area wing_taper_ratio

/-- Partial of `wing_exposed_area` with respect to `wing_taper_ratio` as set by `ExposedWing`, aviary/subsystems/geometry/gasp_based/wing.py:1973 -/
noncomputable def J_wing_exposed_area__wing_taper_ratio (wing_vertical_mount_location fuselage_avg_diameter fuselage_height_to_width_ratio wing_span wing_area wing_taper_ratio : ℝ) : ℝ :=
  d_exp_area_d_taper_ratio wing_vertical_mount_location fuselage_avg_diameter
    fuselage_height_to_width_ratio wing_span wing_area wing_taper_ratio

/-- Partial of `wing_exposed_area` with respect to `wing_area` as set by `ExposedWing`, aviary/subsystems/geometry/gasp_based/wing.py:1980 -/
noncomputable def J_wing_exposed_area__wing_area (wing_vertical_mount_location fuselage_avg_diameter fuselage_height_to_width_ratio wing_span wing_taper_ratio : ℝ) : ℝ :=
  d_exp_area_d_wing_area wing_vertical_mount_location fuselage_avg_diameter
    fuselage_height_to_width_ratio wing_span wing_taper_ratio

theorem d_wing_exposed_area__wing_vertical_mount_location (wing_vertical_mount_location
    fuselage_avg_diameter fuselage_height_to_width_ratio wing_span wing_area wing_taper_ratio : ℝ)
    (h0 : wing_vertical_mount_location ≠ 1 / 20) (h1 : wing_vertical_mount_location ≠ 19 / 20) (h2
    : 0 < (1 / 4) - (((1 / 2) - wing_vertical_mount_location) ^ 2)) (h3 :
    wing_vertical_mount_location ≠ 0) (h4 : 0 < wing_span) (h5 : 0 < wing_taper_ratio) (h6 : 0 <
    (1 / 4) - (((1 / 2) - wing_vertical_mount_location) ^ 2)) :
    HasDerivAt (fun t => out_wing_exposed_area t fuselage_avg_diameter fuselage_height_to_width_ratio wing_span wing_area wing_taper_ratio) (J_wing_exposed_area__wing_vertical_mount_location wing_vertical_mount_location fuselage_avg_diameter fuselage_height_to_width_ratio wing_span wing_area wing_taper_ratio) wing_vertical_mount_location := by
  simp only [out_wing_exposed_area, J_wing_exposed_area__wing_vertical_mount_location, d_exp_area_d_hwing, d_c_fus_d_hwing, d_b_fus_d_hwing, d_sqt_2, d_sqt, dy_5, dy_4, dy_3, diff, exp_wing_area, c_fus, tip_chord, root_chord_wing, b_fus, sqt_3, sqt_2, y_3, a2, c2, b2, d2, dy_2, y_2, c1, b1, d1, y, d2y, dy, sqt, cabin_height, sqrt_eq_rpow]
  try simp only [ite_and, ite_or, not_lt, not_le]
  all_goals (apply hasDerivAt_of_eq; on_goal 1 => (repeat' comp_step))
  all_goals try comp_side
  all_goals try simp (disch := first | assumption | positivity) only [mul_rpow, div_rpow, div_mul_eq_div_div, div_half, inv_half]
  all_goals try split_ifs
  all_goals try (exfalso; linarith)
  all_goals try (exfalso; apply h0; linarith)
  all_goals try (exfalso; apply h1; linarith)
  all_goals try (exfalso; apply h3; linarith)
  all_goals try simp only [mul_zero, zero_mul, add_zero, zero_add, sub_zero, zero_sub, mul_one, one_mul]
  all_goals try push_cast
  all_goals comp_eq

theorem d_wing_exposed_area__fuselage_avg_diameter (wing_vertical_mount_location
    fuselage_avg_diameter fuselage_height_to_width_ratio wing_span wing_area wing_taper_ratio : ℝ)
    (h0 : 0 < (1 / 4) - (((1 / 2) - wing_vertical_mount_location) ^ 2)) (h1 : 0 < wing_span) (h2 :
    0 < wing_taper_ratio) :
    HasDerivAt (fun t => out_wing_exposed_area wing_vertical_mount_location t fuselage_height_to_width_ratio wing_span wing_area wing_taper_ratio) (J_wing_exposed_area__fuselage_avg_diameter wing_vertical_mount_location fuselage_avg_diameter fuselage_height_to_width_ratio wing_span wing_area wing_taper_ratio) fuselage_avg_diameter := by
  simp only [out_wing_exposed_area, J_wing_exposed_area__fuselage_avg_diameter, d_exp_area_d_body_width, d_c_fus_d_body_width, d_b_fus_d_body_width, exp_wing_area, c_fus, tip_chord, root_chord_wing, b_fus, sqt_3, sqt_2, y_3, a2, c2, b2, d2, dy_2, y_2, c1, b1, d1, y, d2y, dy, sqt, cabin_height, sqrt_eq_rpow]
  try split_ifs
  all_goals (apply hasDerivAt_of_eq; on_goal 1 => (repeat' comp_step))
  all_goals try comp_side
  all_goals try simp (disch := first | assumption | positivity) only [div_mul_eq_div_div, div_half, inv_half]
  all_goals try split_ifs
  all_goals try (exfalso; linarith)
  all_goals try simp only [mul_zero, zero_mul, add_zero, zero_add, sub_zero, zero_sub, mul_one, one_mul]
  all_goals try push_cast
  all_goals comp_eq

theorem d_wing_exposed_area__fuselage_height_to_width_ratio (wing_vertical_mount_location
    fuselage_avg_diameter fuselage_height_to_width_ratio wing_span wing_area wing_taper_ratio : ℝ)
    (h0 : 0 < (1 / 4) - (((1 / 2) - wing_vertical_mount_location) ^ 2)) (h1 : 0 < wing_span) (h2 :
    0 < wing_taper_ratio) :
    HasDerivAt (fun t => out_wing_exposed_area wing_vertical_mount_location fuselage_avg_diameter t wing_span wing_area wing_taper_ratio) (J_wing_exposed_area__fuselage_height_to_width_ratio wing_vertical_mount_location fuselage_avg_diameter fuselage_height_to_width_ratio wing_span wing_area wing_taper_ratio) fuselage_height_to_width_ratio := by
  simp only [out_wing_exposed_area, J_wing_exposed_area__fuselage_height_to_width_ratio, d_exp_area_d_height_to_width, d_c_fus_d_height_to_width, d_b_fus_d_height_to_width, exp_wing_area, c_fus, tip_chord, root_chord_wing, b_fus, sqt_3, sqt_2, y_3, a2, c2, b2, d2, dy_2, y_2, c1, b1, d1, y, d2y, dy, sqt, cabin_height, sqrt_eq_rpow]
  try split_ifs
  all_goals (apply hasDerivAt_of_eq; on_goal 1 => (repeat' comp_step))
  all_goals try comp_side
  all_goals try simp (disch := first | assumption | positivity) only [div_mul_eq_div_div, div_half, inv_half]
  all_goals try split_ifs
  all_goals try (exfalso; linarith)
  all_goals try simp only [mul_zero, zero_mul, add_zero, zero_add, sub_zero, zero_sub, mul_one, one_mul]
  all_goals try push_cast
  all_goals comp_eq

theorem d_wing_exposed_area__wing_span (wing_vertical_mount_location fuselage_avg_diameter
    fuselage_height_to_width_ratio wing_span wing_area wing_taper_ratio : ℝ) (h0 : 0 < (1 / 4) -
    (((1 / 2) - wing_vertical_mount_location) ^ 2)) (h1 : 0 < wing_span) (h2 : 0 <
    wing_taper_ratio) :
    HasDerivAt (fun t => out_wing_exposed_area wing_vertical_mount_location fuselage_avg_diameter fuselage_height_to_width_ratio t wing_area wing_taper_ratio) (J_wing_exposed_area__wing_span wing_vertical_mount_location fuselage_avg_diameter fuselage_height_to_width_ratio wing_span wing_area wing_taper_ratio) wing_span := by
  obtain ⟨D_root_chord_wing, hD_root_chord_wing, k_root_chord_wing⟩ : ∃ D : ℝ, D = -(((2 * wing_area) * (1 + wing_taper_ratio)) / ((wing_span * (1 + wing_taper_ratio)) ^ 2)) ∧
      HasDerivAt (fun t => root_chord_wing t wing_area wing_taper_ratio) D wing_span := by
    refine ⟨_, rfl, ?_⟩
    simp only [root_chord_wing]
    apply hasDerivAt_of_eq; on_goal 1 => (repeat' comp_step)
    all_goals try first | comp_side | (apply HasDerivAt.continuousAt; (repeat' comp_step); all_goals comp_side)
    all_goals try simp (disch := first | assumption | positivity) only [div_mul_eq_div_div, div_half, inv_half]
    all_goals try simp only [mul_zero, zero_mul, add_zero, zero_add, sub_zero, zero_sub, mul_one, one_mul, sub_self]
    all_goals try push_cast
    all_goals comp_eq
  obtain ⟨D_tip_chord, hD_tip_chord, k_tip_chord⟩ : ∃ D : ℝ, D = wing_taper_ratio * D_root_chord_wing ∧
      HasDerivAt (fun t => tip_chord t wing_area wing_taper_ratio) D wing_span := by
    refine ⟨_, rfl, ?_⟩
    simp only [tip_chord]
    apply hasDerivAt_of_eq; on_goal 1 => (repeat' comp_step)
    all_goals try first | comp_side | (apply HasDerivAt.continuousAt; (repeat' comp_step); all_goals comp_side)
    all_goals try simp (disch := first | assumption | positivity) only [div_mul_eq_div_div, div_half, inv_half]
    all_goals try simp only [mul_zero, zero_mul, add_zero, zero_add, sub_zero, zero_sub, mul_one, one_mul, sub_self]
    all_goals try push_cast
    all_goals comp_eq
  obtain ⟨D_c_fus, hD_c_fus, k_c_fus⟩ : ∃ D : ℝ, D = D_root_chord_wing + (((((2 * (b_fus wing_vertical_mount_location fuselage_avg_diameter fuselage_height_to_width_ratio)) * (D_tip_chord - D_root_chord_wing)) * wing_span) - ((2 * (b_fus wing_vertical_mount_location fuselage_avg_diameter fuselage_height_to_width_ratio)) * ((tip_chord wing_span wing_area wing_taper_ratio) - (root_chord_wing wing_span wing_area wing_taper_ratio)))) / (wing_span ^ 2)) ∧
      HasDerivAt (fun t => c_fus wing_vertical_mount_location fuselage_avg_diameter fuselage_height_to_width_ratio t wing_area wing_taper_ratio) D wing_span := by
    refine ⟨_, rfl, ?_⟩
    simp only [c_fus]
    apply hasDerivAt_of_eq; on_goal 1 => (repeat' comp_step)
    all_goals try first | comp_side | (apply HasDerivAt.continuousAt; (repeat' comp_step); all_goals comp_side)
    all_goals try simp (disch := first | assumption | positivity) only [div_mul_eq_div_div, div_half, inv_half]
    all_goals try simp only [mul_zero, zero_mul, add_zero, zero_add, sub_zero, zero_sub, mul_one, one_mul, sub_self]
    all_goals try push_cast
    all_goals comp_eq
  obtain ⟨D_exp_wing_area, hD_exp_wing_area, k_exp_wing_area⟩ : ∃ D : ℝ, D = ((1 / 2) * ((c_fus wing_vertical_mount_location fuselage_avg_diameter fuselage_height_to_width_ratio wing_span wing_area wing_taper_ratio) + (tip_chord wing_span wing_area wing_taper_ratio))) + (((wing_span / 2) - (b_fus wing_vertical_mount_location fuselage_avg_diameter fuselage_height_to_width_ratio)) * (D_c_fus + D_tip_chord)) ∧
      HasDerivAt (fun t => exp_wing_area wing_vertical_mount_location fuselage_avg_diameter fuselage_height_to_width_ratio t wing_area wing_taper_ratio) D wing_span := by
    refine ⟨_, rfl, ?_⟩
    simp only [exp_wing_area]
    apply hasDerivAt_of_eq; on_goal 1 => (repeat' comp_step)
    all_goals try first | comp_side | (apply HasDerivAt.continuousAt; (repeat' comp_step); all_goals comp_side)
    all_goals try simp (disch := first | assumption | positivity) only [div_mul_eq_div_div, div_half, inv_half]
    all_goals try simp only [mul_zero, zero_mul, add_zero, zero_add, sub_zero, zero_sub, mul_one, one_mul, sub_self]
    all_goals try push_cast
    all_goals comp_eq
  try simp only [out_wing_exposed_area, J_wing_exposed_area__wing_span, d_exp_area_d_wingspan, d_c_fus_d_wingspan]
  try split_ifs
  all_goals (apply hasDerivAt_of_eq; on_goal 1 => (repeat' comp_step))
  all_goals try first | comp_side | (apply HasDerivAt.continuousAt; (repeat' comp_step); all_goals comp_side)
  all_goals try simp only [hD_root_chord_wing, hD_tip_chord, hD_c_fus, hD_exp_wing_area]
  all_goals try simp (disch := first | assumption | positivity) only [div_mul_eq_div_div, div_half, inv_half]
  all_goals try split_ifs
  all_goals try (exfalso; linarith)
  all_goals try simp only [mul_zero, zero_mul, add_zero, zero_add, sub_zero, zero_sub, mul_one, one_mul, sub_self]
  all_goals try push_cast
  all_goals comp_eq

theorem d_wing_exposed_area__wing_area (wing_vertical_mount_location fuselage_avg_diameter
    fuselage_height_to_width_ratio wing_span wing_area wing_taper_ratio : ℝ) (h0 : 0 < (1 / 4) -
    (((1 / 2) - wing_vertical_mount_location) ^ 2)) (h1 : 0 < wing_span) (h2 : 0 <
    wing_taper_ratio) :
    HasDerivAt (fun t => out_wing_exposed_area wing_vertical_mount_location fuselage_avg_diameter fuselage_height_to_width_ratio wing_span t wing_taper_ratio) (J_wing_exposed_area__wing_area wing_vertical_mount_location fuselage_avg_diameter fuselage_height_to_width_ratio wing_span wing_taper_ratio) wing_area := by
  simp only [out_wing_exposed_area, J_wing_exposed_area__wing_area, d_exp_area_d_wing_area, d_c_fus_d_wing_area, exp_wing_area, c_fus, tip_chord, root_chord_wing, b_fus, sqt_3, sqt_2, y_3, a2, c2, b2, d2, dy_2, y_2, c1, b1, d1, y, d2y, dy, sqt, cabin_height, sqrt_eq_rpow]
  try split_ifs
  all_goals (apply hasDerivAt_of_eq; on_goal 1 => (repeat' comp_step))
  all_goals try comp_side
  all_goals try simp (disch := first | assumption | positivity) only [div_mul_eq_div_div, div_half, inv_half]
  all_goals try split_ifs
  all_goals try (exfalso; linarith)
  all_goals try simp only [mul_zero, zero_mul, add_zero, zero_add, sub_zero, zero_sub, mul_one, one_mul]
  all_goals try push_cast
  all_goals comp_eq

theorem d_wing_exposed_area__wing_taper_ratio (wing_vertical_mount_location fuselage_avg_diameter
    fuselage_height_to_width_ratio wing_span wing_area wing_taper_ratio : ℝ) (h0 : 0 < (1 / 4) -
    (((1 / 2) - wing_vertical_mount_location) ^ 2)) (h1 : 0 < wing_span) (h2 : 0 <
    wing_taper_ratio) :
    HasDerivAt (fun t => out_wing_exposed_area wing_vertical_mount_location fuselage_avg_diameter fuselage_height_to_width_ratio wing_span wing_area t) (J_wing_exposed_area__wing_taper_ratio wing_vertical_mount_location fuselage_avg_diameter fuselage_height_to_width_ratio wing_span wing_area wing_taper_ratio) wing_taper_ratio := by
  obtain ⟨D_root_chord_wing, hD_root_chord_wing, k_root_chord_wing⟩ : ∃ D : ℝ, D = -(((2 * wing_area) * wing_span) / ((wing_span * (1 + wing_taper_ratio)) ^ 2)) ∧
      HasDerivAt (fun t => root_chord_wing wing_span wing_area t) D wing_taper_ratio := by
    refine ⟨_, rfl, ?_⟩
    simp only [root_chord_wing]
    apply hasDerivAt_of_eq; on_goal 1 => (repeat' comp_step)
    all_goals try first | comp_side | (apply HasDerivAt.continuousAt; (repeat' comp_step); all_goals comp_side)
    all_goals try simp (disch := first | assumption | positivity) only [div_mul_eq_div_div, div_half, inv_half]
    all_goals try simp only [mul_zero, zero_mul, add_zero, zero_add, sub_zero, zero_sub, mul_one, one_mul, sub_self]
    all_goals try push_cast
    all_goals comp_eq
  obtain ⟨D_tip_chord, hD_tip_chord, k_tip_chord⟩ : ∃ D : ℝ, D = (root_chord_wing wing_span wing_area wing_taper_ratio) + (wing_taper_ratio * D_root_chord_wing) ∧
      HasDerivAt (fun t => tip_chord wing_span wing_area t) D wing_taper_ratio := by
    refine ⟨_, rfl, ?_⟩
    simp only [tip_chord]
    apply hasDerivAt_of_eq; on_goal 1 => (repeat' comp_step)
    all_goals try first | comp_side | (apply HasDerivAt.continuousAt; (repeat' comp_step); all_goals comp_side)
    all_goals try simp (disch := first | assumption | positivity) only [div_mul_eq_div_div, div_half, inv_half]
    all_goals try simp only [mul_zero, zero_mul, add_zero, zero_add, sub_zero, zero_sub, mul_one, one_mul, sub_self]
    all_goals try push_cast
    all_goals comp_eq
  obtain ⟨D_c_fus, hD_c_fus, k_c_fus⟩ : ∃ D : ℝ, D = D_root_chord_wing + (((2 * (b_fus wing_vertical_mount_location fuselage_avg_diameter fuselage_height_to_width_ratio)) * (D_tip_chord - D_root_chord_wing)) / wing_span) ∧
      HasDerivAt (fun t => c_fus wing_vertical_mount_location fuselage_avg_diameter fuselage_height_to_width_ratio wing_span wing_area t) D wing_taper_ratio := by
    refine ⟨_, rfl, ?_⟩
    simp only [c_fus]
    apply hasDerivAt_of_eq; on_goal 1 => (repeat' comp_step)
    all_goals try first | comp_side | (apply HasDerivAt.continuousAt; (repeat' comp_step); all_goals comp_side)
    all_goals try simp (disch := first | assumption | positivity) only [div_mul_eq_div_div, div_half, inv_half]
    all_goals try simp only [mul_zero, zero_mul, add_zero, zero_add, sub_zero, zero_sub, mul_one, one_mul, sub_self]
    all_goals try push_cast
    all_goals comp_eq
  obtain ⟨D_exp_wing_area, hD_exp_wing_area, k_exp_wing_area⟩ : ∃ D : ℝ, D = ((wing_span / 2) - (b_fus wing_vertical_mount_location fuselage_avg_diameter fuselage_height_to_width_ratio)) * (D_c_fus + D_tip_chord) ∧
      HasDerivAt (fun t => exp_wing_area wing_vertical_mount_location fuselage_avg_diameter fuselage_height_to_width_ratio wing_span wing_area t) D wing_taper_ratio := by
    refine ⟨_, rfl, ?_⟩
    simp only [exp_wing_area]
    apply hasDerivAt_of_eq; on_goal 1 => (repeat' comp_step)
    all_goals try first | comp_side | (apply HasDerivAt.continuousAt; (repeat' comp_step); all_goals comp_side)
    all_goals try simp (disch := first | assumption | positivity) only [div_mul_eq_div_div, div_half, inv_half]
    all_goals try simp only [mul_zero, zero_mul, add_zero, zero_add, sub_zero, zero_sub, mul_one, one_mul, sub_self]
    all_goals try push_cast
    all_goals comp_eq
  try simp only [out_wing_exposed_area, J_wing_exposed_area__wing_taper_ratio, d_exp_area_d_taper_ratio, d_c_fus_d_taper_ratio]
  try split_ifs
  all_goals (apply hasDerivAt_of_eq; on_goal 1 => (repeat' comp_step))
  all_goals try first | comp_side | (apply HasDerivAt.continuousAt; (repeat' comp_step); all_goals comp_side)
  all_goals try simp only [hD_root_chord_wing, hD_tip_chord, hD_c_fus, hD_exp_wing_area]
  all_goals try simp (disch := first | assumption | positivity) only [div_mul_eq_div_div, div_half, inv_half]
  all_goals try split_ifs
  all_goals try (exfalso; linarith)
  all_goals try simp only [mul_zero, zero_mul, add_zero, zero_add, sub_zero, zero_sub, mul_one, one_mul, sub_self]
  all_goals try push_cast
  all_goals comp_eq

/-- Every partial derivative set by `ExposedWing` is the derivative of its output. -/
theorem partials (wing_vertical_mount_location fuselage_avg_diameter
    fuselage_height_to_width_ratio wing_span wing_area wing_taper_ratio : ℝ) (h0 :
    wing_vertical_mount_location ≠ 1 / 20) (h1 : wing_vertical_mount_location ≠ 19 / 20) (h2 : 0 <
    (1 / 4) - (((1 / 2) - wing_vertical_mount_location) ^ 2)) (h3 : wing_vertical_mount_location ≠
    0) (h4 : 0 < wing_span) (h5 : 0 < wing_taper_ratio) :
    HasDerivAt (fun t => out_wing_exposed_area t fuselage_avg_diameter fuselage_height_to_width_ratio
      wing_span wing_area wing_taper_ratio) (J_wing_exposed_area__wing_vertical_mount_location
      wing_vertical_mount_location fuselage_avg_diameter fuselage_height_to_width_ratio wing_span
      wing_area wing_taper_ratio) wing_vertical_mount_location ∧
    HasDerivAt (fun t => out_wing_exposed_area wing_vertical_mount_location t
      fuselage_height_to_width_ratio wing_span wing_area wing_taper_ratio)
      (J_wing_exposed_area__fuselage_avg_diameter wing_vertical_mount_location
      fuselage_avg_diameter fuselage_height_to_width_ratio wing_span wing_area wing_taper_ratio)
      fuselage_avg_diameter ∧
    HasDerivAt (fun t => out_wing_exposed_area wing_vertical_mount_location fuselage_avg_diameter t
      wing_span wing_area wing_taper_ratio) (J_wing_exposed_area__fuselage_height_to_width_ratio
      wing_vertical_mount_location fuselage_avg_diameter fuselage_height_to_width_ratio wing_span
      wing_area wing_taper_ratio) fuselage_height_to_width_ratio ∧
    HasDerivAt (fun t => out_wing_exposed_area wing_vertical_mount_location fuselage_avg_diameter
      fuselage_height_to_width_ratio t wing_area wing_taper_ratio) (J_wing_exposed_area__wing_span
      wing_vertical_mount_location fuselage_avg_diameter fuselage_height_to_width_ratio wing_span
      wing_area wing_taper_ratio) wing_span ∧
    HasDerivAt (fun t => out_wing_exposed_area wing_vertical_mount_location fuselage_avg_diameter
      fuselage_height_to_width_ratio wing_span t wing_taper_ratio) (J_wing_exposed_area__wing_area
      wing_vertical_mount_location fuselage_avg_diameter fuselage_height_to_width_ratio wing_span
      wing_taper_ratio) wing_area ∧
    HasDerivAt (fun t => out_wing_exposed_area wing_vertical_mount_location fuselage_avg_diameter
      fuselage_height_to_width_ratio wing_span wing_area t) (J_wing_exposed_area__wing_taper_ratio
      wing_vertical_mount_location fuselage_avg_diameter fuselage_height_to_width_ratio wing_span
      wing_area wing_taper_ratio) wing_taper_ratio :=
  ⟨d_wing_exposed_area__wing_vertical_mount_location _ _ _ _ _ _ h0 h1 h2 h3 h4 h5 h2,
    d_wing_exposed_area__fuselage_avg_diameter _ _ _ _ _ _ h2 h4 h5,
    d_wing_exposed_area__fuselage_height_to_width_ratio _ _ _ _ _ _ h2 h4 h5,
    d_wing_exposed_area__wing_span _ _ _ _ _ _ h2 h4 h5, d_wing_exposed_area__wing_area _ _ _ _ _
    _ h2 h4 h5, d_wing_exposed_area__wing_taper_ratio _ _ _ _ _ _ h2 h4 h5⟩

example : ∃ wing_vertical_mount_location fuselage_avg_diameter fuselage_height_to_width_ratio
      wing_span wing_area wing_taper_ratio : ℝ,
      wing_vertical_mount_location ≠ 1 / 20 ∧
      wing_vertical_mount_location ≠ 19 / 20 ∧
      0 < (1 / 4) - (((1 / 2) - wing_vertical_mount_location) ^ 2) ∧
      wing_vertical_mount_location ≠ 0 ∧
      0 < wing_span ∧
      0 < wing_taper_ratio :=
  ⟨1 / 2, 1, 1 / 2, 1, 1 / 2, 1 / 2, by comp_example, by comp_example, by comp_example, by
    comp_example, by comp_example, by comp_example⟩

end Verif.Comp.GeometryGaspBasedWing.ExposedWing_blendedwingbody

namespace Verif.Comp.GeometryGaspBasedWing.ExposedWing_transport
open Real

/-- aviary/subsystems/geometry/gasp_based/wing.py:1820 -/
noncomputable abbrev sqt (wing_vertical_mount_location : ℝ) : ℝ :=
  sqrt ((1 / 4) - (((1 / 2) - wing_vertical_mount_location) ^ 2))

/-- aviary/subsystems/geometry/gasp_based/wing.py:1684 -/
noncomputable abbrev y : ℝ := sqrt (19 / 400)

/-- aviary/subsystems/geometry/gasp_based/wing.py:1691 -/
noncomputable abbrev dy : ℝ := (9 / 20) / (sqrt (19 / 400))

/-- aviary/subsystems/geometry/gasp_based/wing.py:1698 -/
noncomputable abbrev d2y : ℝ := (-(1 / 4)) / ((sqrt (19 / 400)) ^ 3)

/-- aviary/subsystems/geometry/gasp_based/wing.py:1713 -/
noncomputable abbrev d1 : ℝ := ((y - ((1 / 20) * dy)) + ((1 / 800) * d2y)) / (1 / 8000)

/-- aviary/subsystems/geometry/gasp_based/wing.py:1714 -/
noncomputable abbrev c1 : ℝ := (d2y - ((6 * d1) * (1 / 20))) / 2

/-- aviary/subsystems/geometry/gasp_based/wing.py:1715 -/
noncomputable abbrev b1 : ℝ := (dy - ((1 / 20) * d2y)) + ((3 * d1) * (1 / 400))

/-- aviary/subsystems/geometry/gasp_based/wing.py:1717 -/
noncomputable abbrev y_2 (wing_vertical_mount_location : ℝ) : ℝ :=
  ((0 + (b1 * wing_vertical_mount_location)) + (c1 * (wing_vertical_mount_location ^ 2))) + (d1
    * (wing_vertical_mount_location ^ 3))

/-- aviary/subsystems/geometry/gasp_based/wing.py:1691 -/
noncomputable abbrev dy_2 : ℝ := (-(9 / 20)) / (sqrt (19 / 400))

/-- aviary/subsystems/geometry/gasp_based/wing.py:1745 -/
noncomputable abbrev d2 : ℝ :=
  (-((y + (dy_2 * (1 / 20))) + (((1 / 2) * d2y) * (1 / 400)))) / (1 / 8000)

/-- aviary/subsystems/geometry/gasp_based/wing.py:1746 -/
noncomputable abbrev c2 : ℝ := (d2y - ((6 * d2) * (19 / 20))) / 2

/-- aviary/subsystems/geometry/gasp_based/wing.py:1747 -/
noncomputable abbrev b2 : ℝ := (dy_2 - (d2y * (19 / 20))) + ((3 * d2) * (361 / 400))

/-- aviary/subsystems/geometry/gasp_based/wing.py:1748 -/
noncomputable abbrev a2 : ℝ := -((b2 + c2) + d2)

/-- aviary/subsystems/geometry/gasp_based/wing.py:1749 -/
noncomputable abbrev y_3 (wing_vertical_mount_location : ℝ) : ℝ :=
  ((a2 + (b2 * wing_vertical_mount_location)) + (c2 * (wing_vertical_mount_location ^ 2))) + (d2
    * (wing_vertical_mount_location ^ 3))

/-- aviary/subsystems/geometry/gasp_based/wing.py:1821 -/
noncomputable abbrev sqt_2 (wing_vertical_mount_location : ℝ) : ℝ :=
  if (0 ≤ wing_vertical_mount_location ∧ wing_vertical_mount_location < (1 / 20)) then (y_2
    wing_vertical_mount_location) else (y_3 wing_vertical_mount_location)

/-- aviary/subsystems/geometry/gasp_based/wing.py:1819 -/
noncomputable abbrev sqt_3 (wing_vertical_mount_location : ℝ) : ℝ :=
  if ((1 / 20) ≤ wing_vertical_mount_location ∧ wing_vertical_mount_location ≤ (19 / 20)) then
    (sqt wing_vertical_mount_location) else (sqt_2 wing_vertical_mount_location)

/-- aviary/subsystems/geometry/gasp_based/wing.py:1832 -/
noncomputable abbrev b_fus (wing_vertical_mount_location fuselage_avg_diameter : ℝ) : ℝ :=
  fuselage_avg_diameter * (sqt_3 wing_vertical_mount_location)

/-- aviary/subsystems/geometry/gasp_based/wing.py:1844 -/
noncomputable abbrev root_chord_wing (wing_span wing_area wing_taper_ratio : ℝ) : ℝ :=
  (2 * wing_area) / (wing_span * (1 + wing_taper_ratio))

/-- aviary/subsystems/geometry/gasp_based/wing.py:1845 -/
noncomputable abbrev tip_chord (wing_span wing_area wing_taper_ratio : ℝ) : ℝ :=
  wing_taper_ratio * (root_chord_wing wing_span wing_area wing_taper_ratio)

/-- aviary/subsystems/geometry/gasp_based/wing.py:1846 -/
noncomputable abbrev c_fus (wing_vertical_mount_location fuselage_avg_diameter wing_span wing_area wing_taper_ratio : ℝ) : ℝ :=
  (root_chord_wing wing_span wing_area wing_taper_ratio) + (((2 * (b_fus
    wing_vertical_mount_location fuselage_avg_diameter)) * ((tip_chord wing_span wing_area
    wing_taper_ratio) - (root_chord_wing wing_span wing_area wing_taper_ratio))) / wing_span)

/-- aviary/subsystems/geometry/gasp_based/wing.py:1848 -/
noncomputable abbrev exp_wing_area (wing_vertical_mount_location fuselage_avg_diameter wing_span wing_area wing_taper_ratio : ℝ) : ℝ :=
  ((wing_span / 2) - (b_fus wing_vertical_mount_location fuselage_avg_diameter)) * ((c_fus
    wing_vertical_mount_location fuselage_avg_diameter wing_span wing_area wing_taper_ratio) +
    (tip_chord wing_span wing_area wing_taper_ratio))

/-- aviary/subsystems/geometry/gasp_based/wing.py:1690 -/
noncomputable abbrev diff (wing_vertical_mount_location : ℝ) : ℝ :=
  (1 / 2) - wing_vertical_mount_location

/-- aviary/subsystems/geometry/gasp_based/wing.py:1691 -/
noncomputable abbrev dy_3 (wing_vertical_mount_location : ℝ) : ℝ :=
  ((1 / 2) - wing_vertical_mount_location) / (sqrt ((1 / 4) - ((diff
    wing_vertical_mount_location) ^ 2)))

/-- aviary/subsystems/geometry/gasp_based/wing.py:1729 -/
noncomputable abbrev dy_4 (wing_vertical_mount_location : ℝ) : ℝ :=
  (b1 + ((2 * c1) * wing_vertical_mount_location)) + ((3 * d1) * (wing_vertical_mount_location ^
    2))

/-- aviary/subsystems/geometry/gasp_based/wing.py:1762 -/
noncomputable abbrev dy_5 (wing_vertical_mount_location : ℝ) : ℝ :=
  (b2 + ((2 * c2) * wing_vertical_mount_location)) + ((3 * d2) * (wing_vertical_mount_location ^
    2))

/-- aviary/subsystems/geometry/gasp_based/wing.py:1861 -/
noncomputable abbrev d_sqt (wing_vertical_mount_location : ℝ) : ℝ :=
  if (0 ≤ wing_vertical_mount_location ∧ wing_vertical_mount_location < (1 / 20)) then (dy_4
    wing_vertical_mount_location) else (dy_5 wing_vertical_mount_location)

/-- aviary/subsystems/geometry/gasp_based/wing.py:1858 -/
noncomputable abbrev d_sqt_2 (wing_vertical_mount_location : ℝ) : ℝ :=
  if ((1 / 20) ≤ wing_vertical_mount_location ∧ wing_vertical_mount_location ≤ (19 / 20)) then
    (dy_3 wing_vertical_mount_location) else (d_sqt wing_vertical_mount_location)

/-- aviary/subsystems/geometry/gasp_based/wing.py:1912 -/
noncomputable abbrev d_b_fus_d_hwing (wing_vertical_mount_location fuselage_avg_diameter : ℝ) : ℝ :=
  fuselage_avg_diameter * (d_sqt_2 wing_vertical_mount_location)

/-- aviary/subsystems/geometry/gasp_based/wing.py:1915 -/
noncomputable abbrev d_c_fus_d_hwing (wing_vertical_mount_location fuselage_avg_diameter wing_span wing_area wing_taper_ratio : ℝ) : ℝ :=
  ((((4 * (d_b_fus_d_hwing wing_vertical_mount_location fuselage_avg_diameter)) *
    (wing_taper_ratio - 1)) / (wing_taper_ratio + 1)) * wing_area) / (wing_span ^ 2)

/-- aviary/subsystems/geometry/gasp_based/wing.py:1923 -/
noncomputable abbrev d_c_fus_d_body_width (wing_vertical_mount_location wing_span wing_area wing_taper_ratio : ℝ) : ℝ :=
  ((((4 * (sqt_3 wing_vertical_mount_location)) * (wing_taper_ratio - 1)) / (wing_taper_ratio +
    1)) * wing_area) / (wing_span ^ 2)

/-- aviary/subsystems/geometry/gasp_based/wing.py:1931 -/
noncomputable abbrev d_c_fus_d_wing_area (wing_vertical_mount_location fuselage_avg_diameter wing_span wing_taper_ratio : ℝ) : ℝ :=
  (2 / (1 + wing_taper_ratio)) * ((1 / wing_span) + ((((b_fus wing_vertical_mount_location
    fuselage_avg_diameter) * 2) * (wing_taper_ratio - 1)) / (wing_span ^ 2)))

/-- aviary/subsystems/geometry/gasp_based/wing.py:1936 -/
noncomputable abbrev d_c_fus_d_wingspan (wing_vertical_mount_location fuselage_avg_diameter wing_span wing_area wing_taper_ratio : ℝ) : ℝ :=
  (((-2) * wing_area) / (1 + wing_taper_ratio)) * ((1 / (wing_span ^ 2)) + ((((b_fus
    wing_vertical_mount_location fuselage_avg_diameter) * 4) * (wing_taper_ratio - 1)) /
    (wing_span ^ 3)))

/-- aviary/subsystems/geometry/gasp_based/wing.py:1942 -/
noncomputable abbrev d_c_fus_d_taper_ratio (wing_vertical_mount_location fuselage_avg_diameter wing_span wing_area wing_taper_ratio : ℝ) : ℝ :=
  ((((-2) * wing_area) / ((1 + wing_taper_ratio) ^ 2)) / wing_span) + (((((b_fus
    wing_vertical_mount_location fuselage_avg_diameter) * 8) * wing_area) / (wing_span ^ 2)) /
    ((wing_taper_ratio + 1) ^ 2))

/-- aviary/subsystems/geometry/gasp_based/wing.py:1947 -/
noncomputable abbrev d_exp_area_d_hwing (wing_vertical_mount_location fuselage_avg_diameter wing_span wing_area wing_taper_ratio : ℝ) : ℝ :=
  (((-(d_b_fus_d_hwing wing_vertical_mount_location fuselage_avg_diameter)) * (c_fus
    wing_vertical_mount_location fuselage_avg_diameter wing_span wing_area wing_taper_ratio)) +
    (((wing_span * (1 / 2)) - (b_fus wing_vertical_mount_location fuselage_avg_diameter)) *
    (d_c_fus_d_hwing wing_vertical_mount_location fuselage_avg_diameter wing_span wing_area
    wing_taper_ratio))) - ((((((d_b_fus_d_hwing wing_vertical_mount_location
    fuselage_avg_diameter) * 2) * wing_area) * wing_taper_ratio) / wing_span) / (1 +
    wing_taper_ratio))

/-- aviary/subsystems/geometry/gasp_based/wing.py:1954 -/
noncomputable abbrev d_exp_area_d_body_width (wing_vertical_mount_location fuselage_avg_diameter wing_span wing_area wing_taper_ratio : ℝ) : ℝ :=
  (((-(sqt_3 wing_vertical_mount_location)) * (c_fus wing_vertical_mount_location
    fuselage_avg_diameter wing_span wing_area wing_taper_ratio)) + (((wing_span * (1 / 2)) -
    (b_fus wing_vertical_mount_location fuselage_avg_diameter)) * (d_c_fus_d_body_width
    wing_vertical_mount_location wing_span wing_area wing_taper_ratio))) - ((((((sqt_3
    wing_vertical_mount_location) * 2) * wing_area) * wing_taper_ratio) / wing_span) / (1 +
    wing_taper_ratio))

/-- aviary/subsystems/geometry/gasp_based/wing.py:1961 -/
noncomputable abbrev d_exp_area_d_wingspan (wing_vertical_mount_location fuselage_avg_diameter wing_span wing_area wing_taper_ratio : ℝ) : ℝ :=
  (((1 / 2) * (c_fus wing_vertical_mount_location fuselage_avg_diameter wing_span wing_area
    wing_taper_ratio)) + ((((1 / 2) * wing_span) - (b_fus wing_vertical_mount_location
    fuselage_avg_diameter)) * (d_c_fus_d_wingspan wing_vertical_mount_location
    fuselage_avg_diameter wing_span wing_area wing_taper_ratio))) + ((((((b_fus
    wing_vertical_mount_location fuselage_avg_diameter) * 2) * wing_area) * wing_taper_ratio) /
    (wing_span ^ 2)) / (1 + wing_taper_ratio))

/-- aviary/subsystems/geometry/gasp_based/wing.py:1968 -/
noncomputable abbrev d_exp_area_d_taper_ratio (wing_vertical_mount_location fuselage_avg_diameter wing_span wing_area wing_taper_ratio : ℝ) : ℝ :=
  (((((1 / 2) * wing_span) - (b_fus wing_vertical_mount_location fuselage_avg_diameter)) *
    (d_c_fus_d_taper_ratio wing_vertical_mount_location fuselage_avg_diameter wing_span
    wing_area wing_taper_ratio)) + (wing_area / ((1 + wing_taper_ratio) ^ 2))) - (((((b_fus
    wing_vertical_mount_location fuselage_avg_diameter) * 2) * wing_area) / wing_span) / ((1 +
    wing_taper_ratio) ^ 2))

/-- aviary/subsystems/geometry/gasp_based/wing.py:1975 -/
noncomputable abbrev d_exp_area_d_wing_area (wing_vertical_mount_location fuselage_avg_diameter wing_span wing_taper_ratio : ℝ) : ℝ :=
  (((((1 / 2) * wing_span) - (b_fus wing_vertical_mount_location fuselage_avg_diameter)) *
    (d_c_fus_d_wing_area wing_vertical_mount_location fuselage_avg_diameter wing_span
    wing_taper_ratio)) + (wing_taper_ratio / (1 + wing_taper_ratio))) - (((((b_fus
    wing_vertical_mount_location fuselage_avg_diameter) * 2) * wing_taper_ratio) / wing_span) /
    (1 + wing_taper_ratio))

/-- Output `wing_exposed_area` of `ExposedWing.compute`, aviary/subsystems/geometry/gasp_based/wing.py:1849 -/
noncomputable def out_wing_exposed_area (wing_vertical_mount_location fuselage_avg_diameter wing_span wing_area wing_taper_ratio : ℝ) : ℝ :=
  exp_wing_area wing_vertical_mount_location fuselage_avg_diameter wing_span wing_area
    wing_taper_ratio

/-- Partial of `wing_exposed_area` with respect to `wing_vertical_mount_location` as set by `ExposedWing`, aviary/subsystems/geometry/gasp_based/wing.py:1952 -/
noncomputable def J_wing_exposed_area__wing_vertical_mount_location (wing_vertical_mount_location fuselage_avg_diameter wing_span wing_area wing_taper_ratio : ℝ) : ℝ :=
  d_exp_area_d_hwing wing_vertical_mount_location fuselage_avg_diameter wing_span wing_area
    wing_taper_ratio

/-- Partial of `wing_exposed_area` with respect to `fuselage_avg_diameter` as set by `ExposedWing`, aviary/subsystems/geometry/gasp_based/wing.py:1959 -/
noncomputable def J_wing_exposed_area__fuselage_avg_diameter (wing_vertical_mount_location fuselage_avg_diameter wing_span wing_area wing_taper_ratio : ℝ) : ℝ :=
  d_exp_area_d_body_width wing_vertical_mount_location fuselage_avg_diameter wing_span wing_area
    wing_taper_ratio

/-- Partial of `wing_exposed_area` with respect to `wing_span` as set by `ExposedWing`, aviary/subsystems/geometry/gasp_based/wing.py:1966 -/
noncomputable def J_wing_exposed_area__wing_span (wing_vertical_mount_location fuselage_avg_diameter wing_span wing_area wing_taper_ratio : ℝ) : ℝ :=
  d_exp_area_d_wingspan wing_vertical_mount_location fuselage_avg_diameter wing_span wing_area
    wing_taper_ratio

/-- Partial of `wing_exposed_area` with respect to `wing_taper_ratio` as set by `ExposedWing`, aviary/subsystems/geometry/gasp_based/wing.py:1973 -/
noncomputable def J_wing_exposed_area__wing_taper_ratio (wing_vertical_mount_location fuselage_avg_diameter wing_span wing_area wing_taper_ratio : ℝ) : ℝ :=
  d_exp_area_d_taper_ratio wing_vertical_mount_location fuselage_avg_diameter wing_span
    wing_area wing_taper_ratio

/-- Partial of `wing_exposed_area` with respect to `wing_area` as set by `ExposedWing`, aviary/subsystems/geometry/gasp_based/wing.py:1980 -/
noncomputable def J_wing_exposed_area__wing_area (wing_vertical_mount_location fuselage_avg_diameter wing_span wing_taper_ratio : ℝ) : ℝ :=
  d_exp_area_d_wing_area wing_vertical_mount_location fuselage_avg_diameter wing_span
    wing_taper_ratio

theorem d_wing_exposed_area__wing_vertical_mount_location (wing_vertical_mount_location
    fuselage_avg_diameter wing_span wing_area wing_taper_ratio : ℝ) (h0 :
    wing_vertical_mount_location ≠ 1 / 20) (h1 : wing_vertical_mount_location ≠ 19 / 20) (h2 : 0 <
    (1 / 4) - (((1 / 2) - wing_vertical_mount_location) ^ 2)) (h3 : wing_vertical_mount_location ≠
    0) (h4 : 0 < wing_span) (h5 : 0 < wing_taper_ratio) (h6 : 0 < (1 / 4) - (((1 / 2) -
    wing_vertical_mount_location) ^ 2)) :
    HasDerivAt (fun t => out_wing_exposed_area t fuselage_avg_diameter wing_span wing_area wing_taper_ratio) (J_wing_exposed_area__wing_vertical_mount_location wing_vertical_mount_location fuselage_avg_diameter wing_span wing_area wing_taper_ratio) wing_vertical_mount_location := by
  simp only [out_wing_exposed_area, J_wing_exposed_area__wing_vertical_mount_location, d_exp_area_d_hwing, d_c_fus_d_hwing, d_b_fus_d_hwing, d_sqt_2, d_sqt, dy_5, dy_4, dy_3, diff, exp_wing_area, c_fus, tip_chord, root_chord_wing, b_fus, sqt_3, sqt_2, y_3, a2, c2, b2, d2, dy_2, y_2, c1, b1, d1, y, d2y, dy, sqt, sqrt_eq_rpow]
  try simp only [ite_and, ite_or, not_lt, not_le]
  all_goals (apply hasDerivAt_of_eq; on_goal 1 => (repeat' comp_step))
  all_goals try comp_side
  all_goals try simp (disch := first | assumption | positivity) only [mul_rpow, div_rpow, div_mul_eq_div_div, div_half, inv_half]
  all_goals try split_ifs
  all_goals try (exfalso; linarith)
  all_goals try (exfalso; apply h0; linarith)
  all_goals try (exfalso; apply h1; linarith)
  all_goals try (exfalso; apply h3; linarith)
  all_goals try simp only [mul_zero, zero_mul, add_zero, zero_add, sub_zero, zero_sub, mul_one, one_mul]
  all_goals try push_cast
  all_goals comp_eq

theorem d_wing_exposed_area__fuselage_avg_diameter (wing_vertical_mount_location
    fuselage_avg_diameter wing_span wing_area wing_taper_ratio : ℝ) (h0 : 0 < (1 / 4) - (((1 / 2)
    - wing_vertical_mount_location) ^ 2)) (h1 : 0 < wing_span) (h2 : 0 < wing_taper_ratio) :
    HasDerivAt (fun t => out_wing_exposed_area wing_vertical_mount_location t wing_span wing_area wing_taper_ratio) (J_wing_exposed_area__fuselage_avg_diameter wing_vertical_mount_location fuselage_avg_diameter wing_span wing_area wing_taper_ratio) fuselage_avg_diameter := by
  simp only [out_wing_exposed_area, J_wing_exposed_area__fuselage_avg_diameter, d_exp_area_d_body_width, d_c_fus_d_body_width, exp_wing_area, c_fus, tip_chord, root_chord_wing, b_fus, sqt_3, sqt_2, y_3, a2, c2, b2, d2, dy_2, y_2, c1, b1, d1, y, d2y, dy, sqt, sqrt_eq_rpow]
  try split_ifs
  all_goals (apply hasDerivAt_of_eq; on_goal 1 => (repeat' comp_step))
  all_goals try comp_side
  all_goals try simp (disch := first | assumption | positivity) only [div_mul_eq_div_div, div_half, inv_half]
  all_goals try split_ifs
  all_goals try (exfalso; linarith)
  all_goals try simp only [mul_zero, zero_mul, add_zero, zero_add, sub_zero, zero_sub, mul_one, one_mul]
  all_goals try push_cast
  all_goals comp_eq

theorem d_wing_exposed_area__wing_span (wing_vertical_mount_location fuselage_avg_diameter
    wing_span wing_area wing_taper_ratio : ℝ) (h0 : 0 < (1 / 4) - (((1 / 2) -
    wing_vertical_mount_location) ^ 2)) (h1 : 0 < wing_span) (h2 : 0 < wing_taper_ratio) :
    HasDerivAt (fun t => out_wing_exposed_area wing_vertical_mount_location fuselage_avg_diameter t wing_area wing_taper_ratio) (J_wing_exposed_area__wing_span wing_vertical_mount_location fuselage_avg_diameter wing_span wing_area wing_taper_ratio) wing_span := by
  obtain ⟨D_root_chord_wing, hD_root_chord_wing, k_root_chord_wing⟩ : ∃ D : ℝ, D = -(((2 * wing_area) * (1 + wing_taper_ratio)) / ((wing_span * (1 + wing_taper_ratio)) ^ 2)) ∧
      HasDerivAt (fun t => root_chord_wing t wing_area wing_taper_ratio) D wing_span := by
    refine ⟨_, rfl, ?_⟩
    simp only [root_chord_wing]
    apply hasDerivAt_of_eq; on_goal 1 => (repeat' comp_step)
    all_goals try first | comp_side | (apply HasDerivAt.continuousAt; (repeat' comp_step); all_goals comp_side)
    all_goals try simp (disch := first | assumption | positivity) only [div_mul_eq_div_div, div_half, inv_half]
    all_goals try simp only [mul_zero, zero_mul, add_zero, zero_add, sub_zero, zero_sub, mul_one, one_mul, sub_self]
    all_goals try push_cast
    all_goals comp_eq
  obtain ⟨D_tip_chord, hD_tip_chord, k_tip_chord⟩ : ∃ D : ℝ, D = wing_taper_ratio * D_root_chord_wing ∧
      HasDerivAt (fun t => tip_chord t wing_area wing_taper_ratio) D wing_span := by
    refine ⟨_, rfl, ?_⟩
    simp only [tip_chord]
    apply hasDerivAt_of_eq; on_goal 1 => (repeat' comp_step)
    all_goals try first | comp_side | (apply HasDerivAt.continuousAt; (repeat' comp_step); all_goals comp_side)
    all_goals try simp (disch := first | assumption | positivity) only [div_mul_eq_div_div, div_half, inv_half]
    all_goals try simp only [mul_zero, zero_mul, add_zero, zero_add, sub_zero, zero_sub, mul_one, one_mul, sub_self]
    all_goals try push_cast
    all_goals comp_eq
  obtain ⟨D_c_fus, hD_c_fus, k_c_fus⟩ : ∃ D : ℝ, D = D_root_chord_wing + (((((2 * (b_fus wing_vertical_mount_location fuselage_avg_diameter)) * (D_tip_chord - D_root_chord_wing)) * wing_span) - ((2 * (b_fus wing_vertical_mount_location fuselage_avg_diameter)) * ((tip_chord wing_span wing_area wing_taper_ratio) - (root_chord_wing wing_span wing_area wing_taper_ratio)))) / (wing_span ^ 2)) ∧
      HasDerivAt (fun t => c_fus wing_vertical_mount_location fuselage_avg_diameter t wing_area wing_taper_ratio) D wing_span := by
    refine ⟨_, rfl, ?_⟩
    simp only [c_fus]
    apply hasDerivAt_of_eq; on_goal 1 => (repeat' comp_step)
    all_goals try first | comp_side | (apply HasDerivAt.continuousAt; (repeat' comp_step); all_goals comp_side)
    all_goals try simp (disch := first | assumption | positivity) only [div_mul_eq_div_div, div_half, inv_half]
    all_goals try simp only [mul_zero, zero_mul, add_zero, zero_add, sub_zero, zero_sub, mul_one, one_mul, sub_self]
    all_goals try push_cast
    all_goals comp_eq
  obtain ⟨D_exp_wing_area, hD_exp_wing_area, k_exp_wing_area⟩ : ∃ D : ℝ, D = ((1 / 2) * ((c_fus wing_vertical_mount_location fuselage_avg_diameter wing_span wing_area wing_taper_ratio) + (tip_chord wing_span wing_area wing_taper_ratio))) + (((wing_span / 2) - (b_fus wing_vertical_mount_location fuselage_avg_diameter)) * (D_c_fus + D_tip_chord)) ∧
      HasDerivAt (fun t => exp_wing_area wing_vertical_mount_location fuselage_avg_diameter t wing_area wing_taper_ratio) D wing_span := by
    refine ⟨_, rfl, ?_⟩
    simp only [exp_wing_area]
    apply hasDerivAt_of_eq; on_goal 1 => (repeat' comp_step)
    all_goals try first | comp_side | (apply HasDerivAt.continuousAt; (repeat' comp_step); all_goals comp_side)
    all_goals try simp (disch := first | assumption | positivity) only [div_mul_eq_div_div, div_half, inv_half]
    all_goals try simp only [mul_zero, zero_mul, add_zero, zero_add, sub_zero, zero_sub, mul_one, one_mul, sub_self]
    all_goals try push_cast
    all_goals comp_eq
  try simp only [out_wing_exposed_area, J_wing_exposed_area__wing_span, d_exp_area_d_wingspan, d_c_fus_d_wingspan]
  try split_ifs
  all_goals (apply hasDerivAt_of_eq; on_goal 1 => (repeat' comp_step))
  all_goals try first | comp_side | (apply HasDerivAt.continuousAt; (repeat' comp_step); all_goals comp_side)
  all_goals try simp only [hD_root_chord_wing, hD_tip_chord, hD_c_fus, hD_exp_wing_area]
  all_goals try simp (disch := first | assumption | positivity) only [div_mul_eq_div_div, div_half, inv_half]
  all_goals try split_ifs
  all_goals try (exfalso; linarith)
  all_goals try simp only [mul_zero, zero_mul, add_zero, zero_add, sub_zero, zero_sub, mul_one, one_mul, sub_self]
  all_goals try push_cast
  all_goals comp_eq

theorem d_wing_exposed_area__wing_area (wing_vertical_mount_location fuselage_avg_diameter
    wing_span wing_area wing_taper_ratio : ℝ) (h0 : 0 < (1 / 4) - (((1 / 2) -
    wing_vertical_mount_location) ^ 2)) (h1 : 0 < wing_span) (h2 : 0 < wing_taper_ratio) :
    HasDerivAt (fun t => out_wing_exposed_area wing_vertical_mount_location fuselage_avg_diameter wing_span t wing_taper_ratio) (J_wing_exposed_area__wing_area wing_vertical_mount_location fuselage_avg_diameter wing_span wing_taper_ratio) wing_area := by
  simp only [out_wing_exposed_area, J_wing_exposed_area__wing_area, d_exp_area_d_wing_area, d_c_fus_d_wing_area, exp_wing_area, c_fus, tip_chord, root_chord_wing, b_fus, sqt_3, sqt_2, y_3, a2, c2, b2, d2, dy_2, y_2, c1, b1, d1, y, d2y, dy, sqt, sqrt_eq_rpow]
  try split_ifs
  all_goals (apply hasDerivAt_of_eq; on_goal 1 => (repeat' comp_step))
  all_goals try comp_side
  all_goals try simp (disch := first | assumption | positivity) only [div_mul_eq_div_div, div_half, inv_half]
  all_goals try split_ifs
  all_goals try (exfalso; linarith)
  all_goals try simp only [mul_zero, zero_mul, add_zero, zero_add, sub_zero, zero_sub, mul_one, one_mul]
  all_goals try push_cast
  all_goals comp_eq

theorem d_wing_exposed_area__wing_taper_ratio (wing_vertical_mount_location fuselage_avg_diameter
    wing_span wing_area wing_taper_ratio : ℝ) (h0 : 0 < (1 / 4) - (((1 / 2) -
    wing_vertical_mount_location) ^ 2)) (h1 : 0 < wing_span) (h2 : 0 < wing_taper_ratio) :
    HasDerivAt (fun t => out_wing_exposed_area wing_vertical_mount_location fuselage_avg_diameter wing_span wing_area t) (J_wing_exposed_area__wing_taper_ratio wing_vertical_mount_location fuselage_avg_diameter wing_span wing_area wing_taper_ratio) wing_taper_ratio := by
  simp only [out_wing_exposed_area, J_wing_exposed_area__wing_taper_ratio, d_exp_area_d_taper_ratio, d_c_fus_d_taper_ratio, exp_wing_area, c_fus, tip_chord, root_chord_wing, b_fus, sqt_3, sqt_2, y_3, a2, c2, b2, d2, dy_2, y_2, c1, b1, d1, y, d2y, dy, sqt, sqrt_eq_rpow]
  try split_ifs
  all_goals (apply hasDerivAt_of_eq; on_goal 1 => (repeat' comp_step))
  all_goals try comp_side
  all_goals try simp (disch := first | assumption | positivity) only [div_mul_eq_div_div, div_half, inv_half]
  all_goals try split_ifs
  all_goals try (exfalso; linarith)
  all_goals try simp only [mul_zero, zero_mul, add_zero, zero_add, sub_zero, zero_sub, mul_one, one_mul]
  all_goals try push_cast
  all_goals comp_eq

/-- Every partial derivative set by `ExposedWing` is the derivative of its output. -/
theorem partials (wing_vertical_mount_location fuselage_avg_diameter wing_span wing_area
    wing_taper_ratio : ℝ) (h0 : wing_vertical_mount_location ≠ 1 / 20) (h1 :
    wing_vertical_mount_location ≠ 19 / 20) (h2 : 0 < (1 / 4) - (((1 / 2) -
    wing_vertical_mount_location) ^ 2)) (h3 : wing_vertical_mount_location ≠ 0) (h4 : 0 <
    wing_span) (h5 : 0 < wing_taper_ratio) :
    HasDerivAt (fun t => out_wing_exposed_area t fuselage_avg_diameter wing_span wing_area
      wing_taper_ratio) (J_wing_exposed_area__wing_vertical_mount_location
      wing_vertical_mount_location fuselage_avg_diameter wing_span wing_area wing_taper_ratio)
      wing_vertical_mount_location ∧
    HasDerivAt (fun t => out_wing_exposed_area wing_vertical_mount_location t wing_span wing_area
      wing_taper_ratio) (J_wing_exposed_area__fuselage_avg_diameter wing_vertical_mount_location
      fuselage_avg_diameter wing_span wing_area wing_taper_ratio) fuselage_avg_diameter ∧
    HasDerivAt (fun t => out_wing_exposed_area wing_vertical_mount_location fuselage_avg_diameter t
      wing_area wing_taper_ratio) (J_wing_exposed_area__wing_span wing_vertical_mount_location
      fuselage_avg_diameter wing_span wing_area wing_taper_ratio) wing_span ∧
    HasDerivAt (fun t => out_wing_exposed_area wing_vertical_mount_location fuselage_avg_diameter
      wing_span t wing_taper_ratio) (J_wing_exposed_area__wing_area wing_vertical_mount_location
      fuselage_avg_diameter wing_span wing_taper_ratio) wing_area ∧
    HasDerivAt (fun t => out_wing_exposed_area wing_vertical_mount_location fuselage_avg_diameter
      wing_span wing_area t) (J_wing_exposed_area__wing_taper_ratio wing_vertical_mount_location
      fuselage_avg_diameter wing_span wing_area wing_taper_ratio) wing_taper_ratio :=
  ⟨d_wing_exposed_area__wing_vertical_mount_location _ _ _ _ _ h0 h1 h2 h3 h4 h5 h2,
    d_wing_exposed_area__fuselage_avg_diameter _ _ _ _ _ h2 h4 h5, d_wing_exposed_area__wing_span
    _ _ _ _ _ h2 h4 h5, d_wing_exposed_area__wing_area _ _ _ _ _ h2 h4 h5,
    d_wing_exposed_area__wing_taper_ratio _ _ _ _ _ h2 h4 h5⟩

example : ∃ wing_vertical_mount_location fuselage_avg_diameter wing_span wing_area
      wing_taper_ratio : ℝ,
      wing_vertical_mount_location ≠ 1 / 20 ∧
      wing_vertical_mount_location ≠ 19 / 20 ∧
      0 < (1 / 4) - (((1 / 2) - wing_vertical_mount_location) ^ 2) ∧
      wing_vertical_mount_location ≠ 0 ∧
      0 < wing_span ∧
      0 < wing_taper_ratio :=
  ⟨1 / 2, 1 / 2, 1, 1, 1, by comp_example, by comp_example, by comp_example, by comp_example, by
    comp_example, by comp_example⟩

end Verif.Comp.GeometryGaspBasedWing.ExposedWing_transport

namespace Verif.Comp.GeometryGaspBasedWing.WingFoldArea_wingchoosefoldlocation
open Real

/-- aviary/subsystems/geometry/gasp_based/wing.py:912 -/
noncomputable def location (wing_folded_span : ℝ) : ℝ := wing_folded_span / 2

/-- aviary/subsystems/geometry/gasp_based/wing.py:914 -/
noncomputable def root_chord_wing (wing_area wing_span wing_taper_ratio : ℝ) : ℝ :=
  (2 * wing_area) / (wing_span * (1 + wing_taper_ratio))

/-- aviary/subsystems/geometry/gasp_based/wing.py:915 -/
noncomputable def tip_chord (wing_area wing_span wing_taper_ratio : ℝ) : ℝ :=
  wing_taper_ratio * (root_chord_wing wing_area wing_span wing_taper_ratio)

/-- aviary/subsystems/geometry/gasp_based/wing.py:916 -/
noncomputable def fold_chord (wing_area wing_span wing_taper_ratio wing_folded_span : ℝ) : ℝ :=
  (root_chord_wing wing_area wing_span wing_taper_ratio) + (((location wing_folded_span) *
    ((tip_chord wing_area wing_span wing_taper_ratio) - (root_chord_wing wing_area wing_span
    wing_taper_ratio))) / (wing_span / 2))

/-- aviary/subsystems/geometry/gasp_based/wing.py:917 -/
noncomputable def folding_area (wing_area wing_span wing_taper_ratio wing_folded_span : ℝ) : ℝ :=
  ((wing_span / 2) - (location wing_folded_span)) * ((fold_chord wing_area wing_span
    wing_taper_ratio wing_folded_span) + (tip_chord wing_area wing_span wing_taper_ratio))

/-- aviary/subsystems/geometry/gasp_based/wing.py:950 -/
noncomputable def drootchordwing_dwingarea (wing_span wing_taper_ratio : ℝ) : ℝ :=
  2 / (wing_span * (1 + wing_taper_ratio))

/-- aviary/subsystems/geometry/gasp_based/wing.py:951 -/
noncomputable def drootchordwing_dwingspan (wing_area wing_span wing_taper_ratio : ℝ) : ℝ :=
  ((-2) * wing_area) / ((wing_span ^ 2) * (1 + wing_taper_ratio))

/-- aviary/subsystems/geometry/gasp_based/wing.py:952 -/
noncomputable def drootchordwing_dtaperratio (wing_area wing_span wing_taper_ratio : ℝ) : ℝ :=
  ((-2) * wing_area) / (wing_span * ((1 + wing_taper_ratio) ^ 2))

/-- aviary/subsystems/geometry/gasp_based/wing.py:954 -/
noncomputable def dtipchord_dtaperratio (wing_area wing_span wing_taper_ratio : ℝ) : ℝ :=
  (wing_taper_ratio * (drootchordwing_dtaperratio wing_area wing_span wing_taper_ratio)) +
    (root_chord_wing wing_area wing_span wing_taper_ratio)

/-- aviary/subsystems/geometry/gasp_based/wing.py:955 -/
noncomputable def dtipchord_dwingarea (wing_span wing_taper_ratio : ℝ) : ℝ :=
  wing_taper_ratio * (drootchordwing_dwingarea wing_span wing_taper_ratio)

/-- aviary/subsystems/geometry/gasp_based/wing.py:956 -/
noncomputable def dtipchord_dwingspan (wing_area wing_span wing_taper_ratio : ℝ) : ℝ :=
  wing_taper_ratio * (drootchordwing_dwingspan wing_area wing_span wing_taper_ratio)

/-- aviary/subsystems/geometry/gasp_based/wing.py:958 -/
noncomputable def dfoldchord_dwingarea (wing_span wing_taper_ratio wing_folded_span : ℝ) : ℝ :=
  (drootchordwing_dwingarea wing_span wing_taper_ratio) + (((location wing_folded_span) *
    ((dtipchord_dwingarea wing_span wing_taper_ratio) - (drootchordwing_dwingarea wing_span
    wing_taper_ratio))) / (wing_span / 2))

/-- aviary/subsystems/geometry/gasp_based/wing.py:961 -/
noncomputable def dfoldchord_dwingspan (wing_area wing_span wing_taper_ratio wing_folded_span : ℝ) : ℝ :=
  ((drootchordwing_dwingspan wing_area wing_span wing_taper_ratio) + (((location
    wing_folded_span) * (((wing_span / 2) * ((dtipchord_dwingspan wing_area wing_span
    wing_taper_ratio) - (drootchordwing_dwingspan wing_area wing_span wing_taper_ratio))) -
    (((tip_chord wing_area wing_span wing_taper_ratio) - (root_chord_wing wing_area wing_span
    wing_taper_ratio)) * (1 / 2)))) / ((wing_span / 2) ^ 2))) + ((0 * ((tip_chord wing_area
    wing_span wing_taper_ratio) - (root_chord_wing wing_area wing_span wing_taper_ratio))) /
    (wing_span / 2))

/-- aviary/subsystems/geometry/gasp_based/wing.py:971 -/
noncomputable def dfoldchord_dtaperratio (wing_area wing_span wing_taper_ratio wing_folded_span : ℝ) : ℝ :=
  (drootchordwing_dtaperratio wing_area wing_span wing_taper_ratio) + (((location
    wing_folded_span) * ((dtipchord_dtaperratio wing_area wing_span wing_taper_ratio) -
    (drootchordwing_dtaperratio wing_area wing_span wing_taper_ratio))) / (wing_span / 2))

/-- Output `wing_folding_area` of `WingFoldArea.compute`, aviary/subsystems/geometry/gasp_based/wing.py:924 -/
noncomputable def out_wing_folding_area (wing_area wing_span wing_taper_ratio wing_folded_span : ℝ) : ℝ :=
  folding_area wing_area wing_span wing_taper_ratio wing_folded_span

/-- Partial of `wing_folding_area` with respect to `wing_area` as set by `WingFoldArea`, aviary/subsystems/geometry/gasp_based/wing.py:975 -/
noncomputable def J_wing_folding_area__wing_area (wing_span wing_taper_ratio wing_folded_span : ℝ) : ℝ :=
  ((wing_span / 2) - (location wing_folded_span)) * ((dfoldchord_dwingarea wing_span
    wing_taper_ratio wing_folded_span) + (dtipchord_dwingarea wing_span wing_taper_ratio))

/-- Partial of `wing_folding_area` with respect to `wing_span` as set by `WingFoldArea`, aviary/subsystems/geometry/gasp_based/wing.py:978 -/
noncomputable def J_wing_folding_area__wing_span (wing_area wing_span wing_taper_ratio wing_folded_span : ℝ) : ℝ :=
  (((wing_span / 2) - (location wing_folded_span)) * ((dfoldchord_dwingspan wing_area wing_span
    wing_taper_ratio wing_folded_span) + (dtipchord_dwingspan wing_area wing_span
    wing_taper_ratio))) + (((fold_chord wing_area wing_span wing_taper_ratio wing_folded_span) +
    (tip_chord wing_area wing_span wing_taper_ratio)) * (1 / 2))

/-- Partial of `wing_folding_area` with respect to `wing_taper_ratio` as set by `WingFoldArea`, aviary/subsystems/geometry/gasp_based/wing.py:981 -/
noncomputable def J_wing_folding_area__wing_taper_ratio (wing_area wing_span wing_taper_ratio wing_folded_span : ℝ) : ℝ :=
  ((wing_span / 2) - (location wing_folded_span)) * ((dfoldchord_dtaperratio wing_area wing_span
    wing_taper_ratio wing_folded_span) + (dtipchord_dtaperratio wing_area wing_span
    wing_taper_ratio))

/-- Partial of `wing_folding_area` with respect to `wing_folded_span` as set by `WingFoldArea`, aviary/subsystems/geometry/gasp_based/wing.py:984 -/
noncomputable def J_wing_folding_area__wing_folded_span (wing_area wing_span wing_taper_ratio wing_folded_span : ℝ) : ℝ :=
  ((-(1 / 2)) * ((fold_chord wing_area wing_span wing_taper_ratio wing_folded_span) + (tip_chord
    wing_area wing_span wing_taper_ratio))) + (((((wing_span / 2) - (location wing_folded_span))
    * (1 / 2)) * ((tip_chord wing_area wing_span wing_taper_ratio) - (root_chord_wing wing_area
    wing_span wing_taper_ratio))) / (wing_span / 2))

theorem d_wing_folding_area__wing_area (wing_area wing_span wing_taper_ratio wing_folded_span : ℝ)
    (h0 : 0 < wing_span) (h1 : 0 < wing_taper_ratio) :
    HasDerivAt (fun t => out_wing_folding_area t wing_span wing_taper_ratio wing_folded_span) (J_wing_folding_area__wing_area wing_span wing_taper_ratio wing_folded_span) wing_area := by
  simp only [out_wing_folding_area, J_wing_folding_area__wing_area, dfoldchord_dwingarea, dtipchord_dwingarea, drootchordwing_dwingarea, folding_area, fold_chord, tip_chord, root_chord_wing, location]
  (apply hasDerivAt_of_eq; on_goal 1 => (repeat' comp_step))
  all_goals try comp_side
  all_goals try simp only [mul_zero, zero_mul, add_zero, zero_add, sub_zero, zero_sub, mul_one, one_mul]
  all_goals try push_cast
  all_goals comp_eq

theorem d_wing_folding_area__wing_span (wing_area wing_span wing_taper_ratio wing_folded_span : ℝ)
    (h0 : 0 < wing_span) (h1 : 0 < wing_taper_ratio) :
    HasDerivAt (fun t => out_wing_folding_area wing_area t wing_taper_ratio wing_folded_span) (J_wing_folding_area__wing_span wing_area wing_span wing_taper_ratio wing_folded_span) wing_span := by
  simp only [out_wing_folding_area, J_wing_folding_area__wing_span, dfoldchord_dwingspan, dtipchord_dwingspan, drootchordwing_dwingspan, folding_area, fold_chord, tip_chord, root_chord_wing, location]
  (apply hasDerivAt_of_eq; on_goal 1 => (repeat' comp_step))
  all_goals try comp_side
  all_goals try simp only [mul_zero, zero_mul, add_zero, zero_add, sub_zero, zero_sub, mul_one, one_mul]
  all_goals try push_cast
  all_goals comp_eq

theorem d_wing_folding_area__wing_taper_ratio (wing_area wing_span wing_taper_ratio
    wing_folded_span : ℝ) (h0 : 0 < wing_span) (h1 : 0 < wing_taper_ratio) :
    HasDerivAt (fun t => out_wing_folding_area wing_area wing_span t wing_folded_span) (J_wing_folding_area__wing_taper_ratio wing_area wing_span wing_taper_ratio wing_folded_span) wing_taper_ratio := by
  simp only [out_wing_folding_area, J_wing_folding_area__wing_taper_ratio, dfoldchord_dtaperratio, dtipchord_dtaperratio, drootchordwing_dtaperratio, folding_area, fold_chord, tip_chord, root_chord_wing, location]
  (apply hasDerivAt_of_eq; on_goal 1 => (repeat' comp_step))
  all_goals try comp_side
  all_goals try simp only [mul_zero, zero_mul, add_zero, zero_add, sub_zero, zero_sub, mul_one, one_mul]
  all_goals try push_cast
  all_goals comp_eq

theorem d_wing_folding_area__wing_folded_span (wing_area wing_span wing_taper_ratio
    wing_folded_span : ℝ) (h0 : 0 < wing_span) (h1 : 0 < wing_taper_ratio) :
    HasDerivAt (fun t => out_wing_folding_area wing_area wing_span wing_taper_ratio t) (J_wing_folding_area__wing_folded_span wing_area wing_span wing_taper_ratio wing_folded_span) wing_folded_span := by
  simp only [out_wing_folding_area, J_wing_folding_area__wing_folded_span, folding_area, fold_chord, tip_chord, root_chord_wing, location]
  (apply hasDerivAt_of_eq; on_goal 1 => (repeat' comp_step))
  all_goals try comp_side
  all_goals try simp only [mul_zero, zero_mul, add_zero, zero_add, sub_zero, zero_sub, mul_one, one_mul]
  all_goals try push_cast
  all_goals comp_eq

/-- Every partial derivative set by `WingFoldArea` is the derivative of its output. -/
theorem partials (wing_area wing_span wing_taper_ratio wing_folded_span : ℝ) (h0 : 0 < wing_span)
    (h1 : 0 < wing_taper_ratio) :
    HasDerivAt (fun t => out_wing_folding_area t wing_span wing_taper_ratio wing_folded_span)
      (J_wing_folding_area__wing_area wing_span wing_taper_ratio wing_folded_span) wing_area ∧
    HasDerivAt (fun t => out_wing_folding_area wing_area t wing_taper_ratio wing_folded_span)
      (J_wing_folding_area__wing_span wing_area wing_span wing_taper_ratio wing_folded_span)
      wing_span ∧
    HasDerivAt (fun t => out_wing_folding_area wing_area wing_span t wing_folded_span)
      (J_wing_folding_area__wing_taper_ratio wing_area wing_span wing_taper_ratio
      wing_folded_span) wing_taper_ratio ∧
    HasDerivAt (fun t => out_wing_folding_area wing_area wing_span wing_taper_ratio t)
      (J_wing_folding_area__wing_folded_span wing_area wing_span wing_taper_ratio
      wing_folded_span) wing_folded_span :=
  ⟨d_wing_folding_area__wing_area _ _ _ _ h0 h1, d_wing_folding_area__wing_span _ _ _ _ h0 h1,
    d_wing_folding_area__wing_taper_ratio _ _ _ _ h0 h1, d_wing_folding_area__wing_folded_span _ _
    _ _ h0 h1⟩

example : ∃ wing_area wing_span wing_taper_ratio wing_folded_span : ℝ,
      0 < wing_span ∧
      0 < wing_taper_ratio :=
  ⟨0, 1, 1, 0, by comp_example, by comp_example⟩

end Verif.Comp.GeometryGaspBasedWing.WingFoldArea_wingchoosefoldlocation

namespace Verif.Comp.GeometryGaspBasedWing.WingFoldArea_no_wingchoosefoldlocation
open Real

/-- aviary/subsystems/geometry/gasp_based/wing.py:914 -/
noncomputable def root_chord_wing (wing_area wing_span wing_taper_ratio : ℝ) : ℝ :=
  (2 * wing_area) / (wing_span * (1 + wing_taper_ratio))

/-- aviary/subsystems/geometry/gasp_based/wing.py:915 -/
noncomputable def tip_chord (wing_area wing_span wing_taper_ratio : ℝ) : ℝ :=
  wing_taper_ratio * (root_chord_wing wing_area wing_span wing_taper_ratio)

/-- aviary/subsystems/geometry/gasp_based/wing.py:916 -/
noncomputable def fold_chord (wing_area wing_span wing_taper_ratio strut_y : ℝ) : ℝ :=
  (root_chord_wing wing_area wing_span wing_taper_ratio) + ((strut_y * ((tip_chord wing_area
    wing_span wing_taper_ratio) - (root_chord_wing wing_area wing_span wing_taper_ratio))) /
    (wing_span / 2))

/-- aviary/subsystems/geometry/gasp_based/wing.py:917 -/
noncomputable def folding_area (wing_area wing_span wing_taper_ratio strut_y : ℝ) : ℝ :=
  ((wing_span / 2) - strut_y) * ((fold_chord wing_area wing_span wing_taper_ratio strut_y) +
    (tip_chord wing_area wing_span wing_taper_ratio))

/-- aviary/subsystems/geometry/gasp_based/wing.py:950 -/
noncomputable def drootchordwing_dwingarea (wing_span wing_taper_ratio : ℝ) : ℝ :=
  2 / (wing_span * (1 + wing_taper_ratio))

/-- aviary/subsystems/geometry/gasp_based/wing.py:951 -/
noncomputable def drootchordwing_dwingspan (wing_area wing_span wing_taper_ratio : ℝ) : ℝ :=
  ((-2) * wing_area) / ((wing_span ^ 2) * (1 + wing_taper_ratio))

/-- aviary/subsystems/geometry/gasp_based/wing.py:952 -/
noncomputable def drootchordwing_dtaperratio (wing_area wing_span wing_taper_ratio : ℝ) : ℝ :=
  ((-2) * wing_area) / (wing_span * ((1 + wing_taper_ratio) ^ 2))

/-- aviary/subsystems/geometry/gasp_based/wing.py:954 -/
noncomputable def dtipchord_dtaperratio (wing_area wing_span wing_taper_ratio : ℝ) : ℝ :=
  (wing_taper_ratio * (drootchordwing_dtaperratio wing_area wing_span wing_taper_ratio)) +
    (root_chord_wing wing_area wing_span wing_taper_ratio)

/-- aviary/subsystems/geometry/gasp_based/wing.py:955 -/
noncomputable def dtipchord_dwingarea (wing_span wing_taper_ratio : ℝ) : ℝ :=
  wing_taper_ratio * (drootchordwing_dwingarea wing_span wing_taper_ratio)

/-- aviary/subsystems/geometry/gasp_based/wing.py:956 -/
noncomputable def dtipchord_dwingspan (wing_area wing_span wing_taper_ratio : ℝ) : ℝ :=
  wing_taper_ratio * (drootchordwing_dwingspan wing_area wing_span wing_taper_ratio)

/-- aviary/subsystems/geometry/gasp_based/wing.py:958 -/
noncomputable def dfoldchord_dwingarea (wing_span wing_taper_ratio strut_y : ℝ) : ℝ :=
  (drootchordwing_dwingarea wing_span wing_taper_ratio) + ((strut_y * ((dtipchord_dwingarea
    wing_span wing_taper_ratio) - (drootchordwing_dwingarea wing_span wing_taper_ratio))) /
    (wing_span / 2))

/-- aviary/subsystems/geometry/gasp_based/wing.py:961 -/
noncomputable def dfoldchord_dwingspan (wing_area wing_span wing_taper_ratio strut_y : ℝ) : ℝ :=
  ((drootchordwing_dwingspan wing_area wing_span wing_taper_ratio) + ((strut_y * (((wing_span /
    2) * ((dtipchord_dwingspan wing_area wing_span wing_taper_ratio) - (drootchordwing_dwingspan
    wing_area wing_span wing_taper_ratio))) - (((tip_chord wing_area wing_span wing_taper_ratio)
    - (root_chord_wing wing_area wing_span wing_taper_ratio)) * (1 / 2)))) / ((wing_span / 2) ^
    2))) + ((0 * ((tip_chord wing_area wing_span wing_taper_ratio) - (root_chord_wing wing_area
    wing_span wing_taper_ratio))) / (wing_span / 2))

/-- aviary/subsystems/geometry/gasp_based/wing.py:971 -/
noncomputable def dfoldchord_dtaperratio (wing_area wing_span wing_taper_ratio strut_y : ℝ) : ℝ :=
  (drootchordwing_dtaperratio wing_area wing_span wing_taper_ratio) + ((strut_y *
    ((dtipchord_dtaperratio wing_area wing_span wing_taper_ratio) - (drootchordwing_dtaperratio
    wing_area wing_span wing_taper_ratio))) / (wing_span / 2))

/-- Output `wing_folding_area` of `WingFoldArea.compute`, aviary/subsystems/geometry/gasp_based/wing.py:924 -/
noncomputable def out_wing_folding_area (wing_area wing_span wing_taper_ratio strut_y : ℝ) : ℝ :=
  folding_area wing_area wing_span wing_taper_ratio strut_y

/-- Partial of `wing_folding_area` with respect to `wing_area` as set by `WingFoldArea`, aviary/subsystems/geometry/gasp_based/wing.py:975 -/
noncomputable def J_wing_folding_area__wing_area (wing_span wing_taper_ratio strut_y : ℝ) : ℝ :=
  ((wing_span / 2) - strut_y) * ((dfoldchord_dwingarea wing_span wing_taper_ratio strut_y) +
    (dtipchord_dwingarea wing_span wing_taper_ratio))

/-- Partial of `wing_folding_area` with respect to `wing_span` as set by `WingFoldArea`, aviary/subsystems/geometry/gasp_based/wing.py:978 -/
noncomputable def J_wing_folding_area__wing_span (wing_area wing_span wing_taper_ratio strut_y : ℝ) : ℝ :=
  (((wing_span / 2) - strut_y) * ((dfoldchord_dwingspan wing_area wing_span wing_taper_ratio
    strut_y) + (dtipchord_dwingspan wing_area wing_span wing_taper_ratio))) + (((fold_chord
    wing_area wing_span wing_taper_ratio strut_y) + (tip_chord wing_area wing_span
    wing_taper_ratio)) * (1 / 2))

/-- Partial of `wing_folding_area` with respect to `wing_taper_ratio` as set by `WingFoldArea`, aviary/subsystems/geometry/gasp_based/wing.py:981 -/
noncomputable def J_wing_folding_area__wing_taper_ratio (wing_area wing_span wing_taper_ratio strut_y : ℝ) : ℝ :=
  ((wing_span / 2) - strut_y) * ((dfoldchord_dtaperratio wing_area wing_span wing_taper_ratio
    strut_y) + (dtipchord_dtaperratio wing_area wing_span wing_taper_ratio))

/-- Partial of `wing_folding_area` with respect to `strut_y` as set by `WingFoldArea`, aviary/subsystems/geometry/gasp_based/wing.py:984 -/
noncomputable def J_wing_folding_area__strut_y (wing_area wing_span wing_taper_ratio strut_y : ℝ) : ℝ :=
  ((-1) * ((fold_chord wing_area wing_span wing_taper_ratio strut_y) + (tip_chord wing_area
    wing_span wing_taper_ratio))) + ((((wing_span / 2) - strut_y) * ((tip_chord wing_area
    wing_span wing_taper_ratio) - (root_chord_wing wing_area wing_span wing_taper_ratio))) /
    (wing_span / 2))

theorem d_wing_folding_area__wing_area (wing_area wing_span wing_taper_ratio strut_y : ℝ) (h0 : 0
    < wing_span) (h1 : 0 < wing_taper_ratio) :
    HasDerivAt (fun t => out_wing_folding_area t wing_span wing_taper_ratio strut_y) (J_wing_folding_area__wing_area wing_span wing_taper_ratio strut_y) wing_area := by
  simp only [out_wing_folding_area, J_wing_folding_area__wing_area, dfoldchord_dwingarea, dtipchord_dwingarea, drootchordwing_dwingarea, folding_area, fold_chord, tip_chord, root_chord_wing]
  (apply hasDerivAt_of_eq; on_goal 1 => (repeat' comp_step))
  all_goals try comp_side
  all_goals try simp only [mul_zero, zero_mul, add_zero, zero_add, sub_zero, zero_sub, mul_one, one_mul]
  all_goals try push_cast
  all_goals comp_eq

theorem d_wing_folding_area__wing_span (wing_area wing_span wing_taper_ratio strut_y : ℝ) (h0 : 0
    < wing_span) (h1 : 0 < wing_taper_ratio) :
    HasDerivAt (fun t => out_wing_folding_area wing_area t wing_taper_ratio strut_y) (J_wing_folding_area__wing_span wing_area wing_span wing_taper_ratio strut_y) wing_span := by
  simp only [out_wing_folding_area, J_wing_folding_area__wing_span, dfoldchord_dwingspan, dtipchord_dwingspan, drootchordwing_dwingspan, folding_area, fold_chord, tip_chord, root_chord_wing]
  (apply hasDerivAt_of_eq; on_goal 1 => (repeat' comp_step))
  all_goals try comp_side
  all_goals try simp only [mul_zero, zero_mul, add_zero, zero_add, sub_zero, zero_sub, mul_one, one_mul]
  all_goals try push_cast
  all_goals comp_eq

theorem d_wing_folding_area__wing_taper_ratio (wing_area wing_span wing_taper_ratio strut_y : ℝ)
    (h0 : 0 < wing_span) (h1 : 0 < wing_taper_ratio) :
    HasDerivAt (fun t => out_wing_folding_area wing_area wing_span t strut_y) (J_wing_folding_area__wing_taper_ratio wing_area wing_span wing_taper_ratio strut_y) wing_taper_ratio := by
  simp only [out_wing_folding_area, J_wing_folding_area__wing_taper_ratio, dfoldchord_dtaperratio, dtipchord_dtaperratio, drootchordwing_dtaperratio, folding_area, fold_chord, tip_chord, root_chord_wing]
  (apply hasDerivAt_of_eq; on_goal 1 => (repeat' comp_step))
  all_goals try comp_side
  all_goals try simp only [mul_zero, zero_mul, add_zero, zero_add, sub_zero, zero_sub, mul_one, one_mul]
  all_goals try push_cast
  all_goals comp_eq

theorem d_wing_folding_area__strut_y (wing_area wing_span wing_taper_ratio strut_y : ℝ) (h0 : 0 <
    wing_span) (h1 : 0 < wing_taper_ratio) :
    HasDerivAt (fun t => out_wing_folding_area wing_area wing_span wing_taper_ratio t) (J_wing_folding_area__strut_y wing_area wing_span wing_taper_ratio strut_y) strut_y := by
  simp only [out_wing_folding_area, J_wing_folding_area__strut_y, folding_area, fold_chord, tip_chord, root_chord_wing]
  (apply hasDerivAt_of_eq; on_goal 1 => (repeat' comp_step))
  all_goals try comp_side
  all_goals try simp only [mul_zero, zero_mul, add_zero, zero_add, sub_zero, zero_sub, mul_one, one_mul]
  all_goals try push_cast
  all_goals comp_eq

/-- Every partial derivative set by `WingFoldArea` is the derivative of its output. -/
theorem partials (wing_area wing_span wing_taper_ratio strut_y : ℝ) (h0 : 0 < wing_span) (h1 : 0 <
    wing_taper_ratio) :
    HasDerivAt (fun t => out_wing_folding_area t wing_span wing_taper_ratio strut_y)
      (J_wing_folding_area__wing_area wing_span wing_taper_ratio strut_y) wing_area ∧
    HasDerivAt (fun t => out_wing_folding_area wing_area t wing_taper_ratio strut_y)
      (J_wing_folding_area__wing_span wing_area wing_span wing_taper_ratio strut_y) wing_span ∧
    HasDerivAt (fun t => out_wing_folding_area wing_area wing_span t strut_y)
      (J_wing_folding_area__wing_taper_ratio wing_area wing_span wing_taper_ratio strut_y)
      wing_taper_ratio ∧
    HasDerivAt (fun t => out_wing_folding_area wing_area wing_span wing_taper_ratio t)
      (J_wing_folding_area__strut_y wing_area wing_span wing_taper_ratio strut_y) strut_y :=
  ⟨d_wing_folding_area__wing_area _ _ _ _ h0 h1, d_wing_folding_area__wing_span _ _ _ _ h0 h1,
    d_wing_folding_area__wing_taper_ratio _ _ _ _ h0 h1, d_wing_folding_area__strut_y _ _ _ _ h0
    h1⟩

example : ∃ wing_area wing_span wing_taper_ratio strut_y : ℝ,
      0 < wing_span ∧
      0 < wing_taper_ratio :=
  ⟨0, 1, 1, 0, by comp_example, by comp_example⟩

end Verif.Comp.GeometryGaspBasedWing.WingFoldArea_no_wingchoosefoldlocation

