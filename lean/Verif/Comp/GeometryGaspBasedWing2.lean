import Verif.Lemmas.CompDeriv

/-! # Partial derivatives of the components of `aviary/subsystems/geometry/gasp_based/wing.py`

One node of a vector component is modelled over the real numbers.  Each option that selects a
branch is fixed, one namespace per choice.  `out_x` is the output `x`, `J_x__y` the entry that
`compute_partials` (or `declare_partials` with `val`) assigns, `d_x__y` the proof that the entry is
the derivative.  Inputs an output does not take as argument have no influence on it. -/

set_option linter.all false

namespace Verif.Comp.GeometryGaspBasedWing.WingFoldVolume_wingchoosefoldlocation
open Real

/-- aviary/subsystems/geometry/gasp_based/wing.py:1118 -/
noncomputable def location (wing_folded_span : ℝ) : ℝ := wing_folded_span / 2

/-- aviary/subsystems/geometry/gasp_based/wing.py:1120 -/
noncomputable def root_chord_wing (wing_area wing_span wing_taper_ratio : ℝ) : ℝ :=
  (2 * wing_area) / (wing_span * (1 + wing_taper_ratio))

/-- aviary/subsystems/geometry/gasp_based/wing.py:1121 -/
noncomputable def tip_chord (wing_area wing_span wing_taper_ratio : ℝ) : ℝ :=
  wing_taper_ratio * (root_chord_wing wing_area wing_span wing_taper_ratio)

/-- aviary/subsystems/geometry/gasp_based/wing.py:1122 -/
noncomputable def fold_chord (wing_area wing_span wing_taper_ratio wing_folded_span : ℝ) : ℝ :=
  (root_chord_wing wing_area wing_span wing_taper_ratio) + (((location wing_folded_span) *
    ((tip_chord wing_area wing_span wing_taper_ratio) - (root_chord_wing wing_area wing_span
    wing_taper_ratio))) / (wing_span / 2))

/-- aviary/subsystems/geometry/gasp_based/wing.py:1123 -/
noncomputable def nonfolded_taper_ratio (wing_area wing_span wing_taper_ratio wing_folded_span : ℝ) : ℝ :=
  (fold_chord wing_area wing_span wing_taper_ratio wing_folded_span) / (root_chord_wing
    wing_area wing_span wing_taper_ratio)

/-- aviary/subsystems/geometry/gasp_based/wing.py:1124 -/
noncomputable def nonfolded_wing_area (wing_area wing_folding_area : ℝ) : ℝ :=
  wing_area - wing_folding_area

/-- aviary/subsystems/geometry/gasp_based/wing.py:1126 -/
noncomputable def tc_ratio_fold (wing_span wing_thickness_to_chord_root wing_thickness_to_chord_tip wing_folded_span : ℝ) : ℝ :=
  wing_thickness_to_chord_root + (((location wing_folded_span) * (wing_thickness_to_chord_tip -
    wing_thickness_to_chord_root)) / (wing_span / 2))

/-- aviary/subsystems/geometry/gasp_based/wing.py:1127 -/
noncomputable def tc_ratio_mean_folded (wing_span wing_thickness_to_chord_root wing_thickness_to_chord_tip wing_folded_span : ℝ) : ℝ :=
  (1 / 2) * (wing_thickness_to_chord_root + (tc_ratio_fold wing_span
    wing_thickness_to_chord_root wing_thickness_to_chord_tip wing_folded_span))

/-- aviary/subsystems/geometry/gasp_based/wing.py:1128 -/
noncomputable def nonfolded_ar (wing_area wing_folding_area wing_folded_span : ℝ) : ℝ :=
  (4 * ((location wing_folded_span) ^ 2)) / (nonfolded_wing_area wing_area wing_folding_area)

/-- aviary/subsystems/geometry/gasp_based/wing.py:1129 -/
noncomputable def geometric_fuel_vol (wing_area wing_span wing_taper_ratio wing_thickness_to_chord_root wing_thickness_to_chord_tip fuel_wing_fuel_fraction wing_folding_area wing_folded_span : ℝ) : ℝ :=
  ((((fuel_wing_fuel_fraction * (888889 / 1000000)) * (tc_ratio_mean_folded wing_span
    wing_thickness_to_chord_root wing_thickness_to_chord_tip wing_folded_span)) *
    ((nonfolded_wing_area wing_area wing_folding_area) ^ ((3 / 2) : ℝ))) * ((2 *
    (nonfolded_taper_ratio wing_area wing_span wing_taper_ratio wing_folded_span)) + 1)) /
    (((nonfolded_ar wing_area wing_folding_area wing_folded_span) ^ ((1 / 2) : ℝ)) *
    (((nonfolded_taper_ratio wing_area wing_span wing_taper_ratio wing_folded_span) + 1) ^ 2))

/-- aviary/subsystems/geometry/gasp_based/wing.py:1168 -/
noncomputable def drootchordwing_dwingarea (wing_span wing_taper_ratio : ℝ) : ℝ :=
  2 / (wing_span * (1 + wing_taper_ratio))

/-- aviary/subsystems/geometry/gasp_based/wing.py:1169 -/
noncomputable def drootchordwing_dwingspan (wing_area wing_span wing_taper_ratio : ℝ) : ℝ :=
  ((-2) * wing_area) / ((wing_span ^ 2) * (1 + wing_taper_ratio))

/-- aviary/subsystems/geometry/gasp_based/wing.py:1170 -/
noncomputable def drootchordwing_dtaperratio (wing_area wing_span wing_taper_ratio : ℝ) : ℝ :=
  ((-2) * wing_area) / (wing_span * ((1 + wing_taper_ratio) ^ 2))

/-- aviary/subsystems/geometry/gasp_based/wing.py:1173 -/
noncomputable def dtipchord_dtaperratio (wing_area wing_span wing_taper_ratio : ℝ) : ℝ :=
  (wing_taper_ratio * (drootchordwing_dtaperratio wing_area wing_span wing_taper_ratio)) +
    (root_chord_wing wing_area wing_span wing_taper_ratio)

/-- aviary/subsystems/geometry/gasp_based/wing.py:1174 -/
noncomputable def dtipchord_dwingarea (wing_span wing_taper_ratio : ℝ) : ℝ :=
  wing_taper_ratio * (drootchordwing_dwingarea wing_span wing_taper_ratio)

/-- aviary/subsystems/geometry/gasp_based/wing.py:1175 -/
noncomputable def dtipchord_dwingspan (wing_area wing_span wing_taper_ratio : ℝ) : ℝ :=
  wing_taper_ratio * (drootchordwing_dwingspan wing_area wing_span wing_taper_ratio)

/-- aviary/subsystems/geometry/gasp_based/wing.py:1178 -/
noncomputable def dfoldchord_dwingarea (wing_span wing_taper_ratio wing_folded_span : ℝ) : ℝ :=
  (drootchordwing_dwingarea wing_span wing_taper_ratio) + (((location wing_folded_span) *
    ((dtipchord_dwingarea wing_span wing_taper_ratio) - (drootchordwing_dwingarea wing_span
    wing_taper_ratio))) / (wing_span / 2))

/-- aviary/subsystems/geometry/gasp_based/wing.py:1181 -/
noncomputable def dfoldchord_dwingspan (wing_area wing_span wing_taper_ratio wing_folded_span : ℝ) : ℝ :=
  ((drootchordwing_dwingspan wing_area wing_span wing_taper_ratio) + (((location
    wing_folded_span) * (((wing_span / 2) * ((dtipchord_dwingspan wing_area wing_span
    wing_taper_ratio) - (drootchordwing_dwingspan wing_area wing_span wing_taper_ratio))) -
    (((tip_chord wing_area wing_span wing_taper_ratio) - (root_chord_wing wing_area wing_span
    wing_taper_ratio)) * (1 / 2)))) / ((wing_span / 2) ^ 2))) + ((0 * ((tip_chord wing_area
    wing_span wing_taper_ratio) - (root_chord_wing wing_area wing_span wing_taper_ratio))) /
    (wing_span / 2))

/-- aviary/subsystems/geometry/gasp_based/wing.py:1191 -/
noncomputable def dfoldchord_dtaperratio (wing_area wing_span wing_taper_ratio wing_folded_span : ℝ) : ℝ :=
  (drootchordwing_dtaperratio wing_area wing_span wing_taper_ratio) + (((location
    wing_folded_span) * ((dtipchord_dtaperratio wing_area wing_span wing_taper_ratio) -
    (drootchordwing_dtaperratio wing_area wing_span wing_taper_ratio))) / (wing_span / 2))

/-- aviary/subsystems/geometry/gasp_based/wing.py:1194 -/
noncomputable def dfoldchord_dy (wing_area wing_span wing_taper_ratio : ℝ) : ℝ :=
  ((1 / 2) * ((tip_chord wing_area wing_span wing_taper_ratio) - (root_chord_wing wing_area
    wing_span wing_taper_ratio))) / (wing_span / 2)

/-- aviary/subsystems/geometry/gasp_based/wing.py:1197 -/
noncomputable def dnftr_dwingarea (wing_area wing_span wing_taper_ratio wing_folded_span : ℝ) : ℝ :=
  (((root_chord_wing wing_area wing_span wing_taper_ratio) * (dfoldchord_dwingarea wing_span
    wing_taper_ratio wing_folded_span)) - ((fold_chord wing_area wing_span wing_taper_ratio
    wing_folded_span) * (drootchordwing_dwingarea wing_span wing_taper_ratio))) /
    ((root_chord_wing wing_area wing_span wing_taper_ratio) ^ 2)

/-- aviary/subsystems/geometry/gasp_based/wing.py:1200 -/
noncomputable def dnftr_dwingspan (wing_area wing_span wing_taper_ratio wing_folded_span : ℝ) : ℝ :=
  (((root_chord_wing wing_area wing_span wing_taper_ratio) * (dfoldchord_dwingspan wing_area
    wing_span wing_taper_ratio wing_folded_span)) - ((fold_chord wing_area wing_span
    wing_taper_ratio wing_folded_span) * (drootchordwing_dwingspan wing_area wing_span
    wing_taper_ratio))) / ((root_chord_wing wing_area wing_span wing_taper_ratio) ^ 2)

/-- aviary/subsystems/geometry/gasp_based/wing.py:1203 -/
noncomputable def dnftr_dtaperratio (wing_area wing_span wing_taper_ratio wing_folded_span : ℝ) : ℝ :=
  (((root_chord_wing wing_area wing_span wing_taper_ratio) * (dfoldchord_dtaperratio wing_area
    wing_span wing_taper_ratio wing_folded_span)) - ((fold_chord wing_area wing_span
    wing_taper_ratio wing_folded_span) * (drootchordwing_dtaperratio wing_area wing_span
    wing_taper_ratio))) / ((root_chord_wing wing_area wing_span wing_taper_ratio) ^ 2)

/-- aviary/subsystems/geometry/gasp_based/wing.py:1206 -/
noncomputable def dnftr_dy (wing_area wing_span wing_taper_ratio : ℝ) : ℝ :=
  (dfoldchord_dy wing_area wing_span wing_taper_ratio) / (root_chord_wing wing_area wing_span
    wing_taper_ratio)

/-- aviary/subsystems/geometry/gasp_based/wing.py:1220 -/
noncomputable def dtc_ratio_rootatiofold_dtc_ratio_root (wing_span wing_folded_span : ℝ) : ℝ :=
  1 + (((location wing_folded_span) * (-1)) / (wing_span / 2))

/-- aviary/subsystems/geometry/gasp_based/wing.py:1221 -/
noncomputable def dtc_ratio_rootatiofold_dtc_ratio_tip (wing_span wing_folded_span : ℝ) : ℝ :=
  (location wing_folded_span) / (wing_span / 2)

/-- aviary/subsystems/geometry/gasp_based/wing.py:1222 -/
noncomputable def dtc_ratio_rootatiofold_dwingspan (wing_span wing_thickness_to_chord_root wing_thickness_to_chord_tip wing_folded_span : ℝ) : ℝ :=
  ((wing_thickness_to_chord_tip - wing_thickness_to_chord_root) * (((wing_span / 2) * 0) -
    ((location wing_folded_span) * (1 / 2)))) / ((wing_span / 2) ^ 2)

/-- aviary/subsystems/geometry/gasp_based/wing.py:1227 -/
noncomputable def dtc_ratio_rootatiofold_dy (wing_span wing_thickness_to_chord_root wing_thickness_to_chord_tip : ℝ) : ℝ :=
  ((1 / 2) * (wing_thickness_to_chord_tip - wing_thickness_to_chord_root)) / (wing_span / 2)

/-- aviary/subsystems/geometry/gasp_based/wing.py:1230 -/
noncomputable def dtc_ratio_rootmeanfolded_dtc_ratio_root (wing_span wing_folded_span : ℝ) : ℝ :=
  (1 / 2) * (1 + (dtc_ratio_rootatiofold_dtc_ratio_root wing_span wing_folded_span))

/-- aviary/subsystems/geometry/gasp_based/wing.py:1231 -/
noncomputable def dtc_ratio_rootmeanfolded_dtc_ratio_tip (wing_span wing_folded_span : ℝ) : ℝ :=
  (1 / 2) * (dtc_ratio_rootatiofold_dtc_ratio_tip wing_span wing_folded_span)

/-- aviary/subsystems/geometry/gasp_based/wing.py:1232 -/
noncomputable def dtc_ratio_rootmeanfolded_dwingspan (wing_span wing_thickness_to_chord_root wing_thickness_to_chord_tip wing_folded_span : ℝ) : ℝ :=
  (1 / 2) * (dtc_ratio_rootatiofold_dwingspan wing_span wing_thickness_to_chord_root
    wing_thickness_to_chord_tip wing_folded_span)

/-- aviary/subsystems/geometry/gasp_based/wing.py:1233 -/
noncomputable def dtc_ratio_rootmeanfolded_dy (wing_span wing_thickness_to_chord_root wing_thickness_to_chord_tip : ℝ) : ℝ :=
  (1 / 2) * (dtc_ratio_rootatiofold_dy wing_span wing_thickness_to_chord_root
    wing_thickness_to_chord_tip)

/-- aviary/subsystems/geometry/gasp_based/wing.py:1245 -/
noncomputable def dnfar_dwingarea (wing_area wing_folding_area wing_folded_span : ℝ) : ℝ :=
  ((-4) * ((location wing_folded_span) ^ 2)) / ((nonfolded_wing_area wing_area
    wing_folding_area) ^ 2)

/-- aviary/subsystems/geometry/gasp_based/wing.py:1246 -/
noncomputable def dnfar_dwingfoldarea (wing_area wing_folding_area wing_folded_span : ℝ) : ℝ :=
  (4 * ((location wing_folded_span) ^ 2)) / ((nonfolded_wing_area wing_area wing_folding_area) ^
    2)

/-- aviary/subsystems/geometry/gasp_based/wing.py:1247 -/
noncomputable def dnfar_dwingspan (wing_area wing_folding_area wing_folded_span : ℝ) : ℝ :=
  (4 * ((2 * (location wing_folded_span)) * 0)) / (nonfolded_wing_area wing_area
    wing_folding_area)

/-- aviary/subsystems/geometry/gasp_based/wing.py:1249 -/
noncomputable def dnfar_dy (wing_area wing_folding_area wing_folded_span : ℝ) : ℝ :=
  (4 * ((2 * (location wing_folded_span)) * (1 / 2))) / (nonfolded_wing_area wing_area
    wing_folding_area)

/-- aviary/subsystems/geometry/gasp_based/wing.py:1256 -/
noncomputable def a (wing_area wing_span wing_taper_ratio wing_folding_area wing_folded_span : ℝ) : ℝ :=
  ((nonfolded_wing_area wing_area wing_folding_area) ^ ((3 / 2) : ℝ)) * ((2 *
    (nonfolded_taper_ratio wing_area wing_span wing_taper_ratio wing_folded_span)) + 1)

/-- aviary/subsystems/geometry/gasp_based/wing.py:1257 -/
noncomputable def da_dwingspan (wing_area wing_span wing_taper_ratio wing_folding_area wing_folded_span : ℝ) : ℝ :=
  (((nonfolded_wing_area wing_area wing_folding_area) ^ ((3 / 2) : ℝ)) * 2) * (dnftr_dwingspan
    wing_area wing_span wing_taper_ratio wing_folded_span)

/-- aviary/subsystems/geometry/gasp_based/wing.py:1258 -/
noncomputable def da_dy (wing_area wing_span wing_taper_ratio wing_folding_area : ℝ) : ℝ :=
  (((nonfolded_wing_area wing_area wing_folding_area) ^ ((3 / 2) : ℝ)) * 2) * (dnftr_dy
    wing_area wing_span wing_taper_ratio)

/-- aviary/subsystems/geometry/gasp_based/wing.py:1260 -/
noncomputable def num (wing_area wing_span wing_taper_ratio wing_thickness_to_chord_root wing_thickness_to_chord_tip fuel_wing_fuel_fraction wing_folding_area wing_folded_span : ℝ) : ℝ :=
  ((fuel_wing_fuel_fraction * (888889 / 1000000)) * (tc_ratio_mean_folded wing_span
    wing_thickness_to_chord_root wing_thickness_to_chord_tip wing_folded_span)) * (a wing_area
    wing_span wing_taper_ratio wing_folding_area wing_folded_span)

/-- aviary/subsystems/geometry/gasp_based/wing.py:1261 -/
noncomputable def dnum_dwingspan (wing_area wing_span wing_taper_ratio wing_thickness_to_chord_root wing_thickness_to_chord_tip fuel_wing_fuel_fraction wing_folding_area wing_folded_span : ℝ) : ℝ :=
  (((fuel_wing_fuel_fraction * (888889 / 1000000)) * (dtc_ratio_rootmeanfolded_dwingspan
    wing_span wing_thickness_to_chord_root wing_thickness_to_chord_tip wing_folded_span)) * (a
    wing_area wing_span wing_taper_ratio wing_folding_area wing_folded_span)) +
    (((fuel_wing_fuel_fraction * (888889 / 1000000)) * (tc_ratio_mean_folded wing_span
    wing_thickness_to_chord_root wing_thickness_to_chord_tip wing_folded_span)) * (da_dwingspan
    wing_area wing_span wing_taper_ratio wing_folding_area wing_folded_span))

/-- aviary/subsystems/geometry/gasp_based/wing.py:1265 -/
noncomputable def dnum_dy (wing_area wing_span wing_taper_ratio wing_thickness_to_chord_root wing_thickness_to_chord_tip fuel_wing_fuel_fraction wing_folding_area wing_folded_span : ℝ) : ℝ :=
  (((fuel_wing_fuel_fraction * (888889 / 1000000)) * (dtc_ratio_rootmeanfolded_dy wing_span
    wing_thickness_to_chord_root wing_thickness_to_chord_tip)) * (a wing_area wing_span
    wing_taper_ratio wing_folding_area wing_folded_span)) + (((fuel_wing_fuel_fraction * (888889
    / 1000000)) * (tc_ratio_mean_folded wing_span wing_thickness_to_chord_root
    wing_thickness_to_chord_tip wing_folded_span)) * (da_dy wing_area wing_span wing_taper_ratio
    wing_folding_area))

/-- aviary/subsystems/geometry/gasp_based/wing.py:1269 -/
noncomputable def dnum_dwingarea (wing_area wing_span wing_taper_ratio wing_thickness_to_chord_root wing_thickness_to_chord_tip fuel_wing_fuel_fraction wing_folding_area wing_folded_span : ℝ) : ℝ :=
  (((((fuel_wing_fuel_fraction * (888889 / 1000000)) * (tc_ratio_mean_folded wing_span
    wing_thickness_to_chord_root wing_thickness_to_chord_tip wing_folded_span)) * (3 / 2)) *
    ((nonfolded_wing_area wing_area wing_folding_area) ^ ((1 / 2) : ℝ))) * ((2 *
    (nonfolded_taper_ratio wing_area wing_span wing_taper_ratio wing_folded_span)) + 1)) +
    (((((fuel_wing_fuel_fraction * (888889 / 1000000)) * (tc_ratio_mean_folded wing_span
    wing_thickness_to_chord_root wing_thickness_to_chord_tip wing_folded_span)) *
    ((nonfolded_wing_area wing_area wing_folding_area) ^ ((3 / 2) : ℝ))) * 2) * (dnftr_dwingarea
    wing_area wing_span wing_taper_ratio wing_folded_span))

/-- aviary/subsystems/geometry/gasp_based/wing.py:1280 -/
noncomputable def dnum_dwingfoldarea (wing_area wing_span wing_taper_ratio wing_thickness_to_chord_root wing_thickness_to_chord_tip fuel_wing_fuel_fraction wing_folding_area wing_folded_span : ℝ) : ℝ :=
  (((((fuel_wing_fuel_fraction * (888889 / 1000000)) * (tc_ratio_mean_folded wing_span
    wing_thickness_to_chord_root wing_thickness_to_chord_tip wing_folded_span)) * (3 / 2)) *
    ((nonfolded_wing_area wing_area wing_folding_area) ^ ((1 / 2) : ℝ))) * (-1)) * ((2 *
    (nonfolded_taper_ratio wing_area wing_span wing_taper_ratio wing_folded_span)) + 1)

/-- aviary/subsystems/geometry/gasp_based/wing.py:1290 -/
noncomputable def dnum_dtaperratio (wing_area wing_span wing_taper_ratio wing_thickness_to_chord_root wing_thickness_to_chord_tip fuel_wing_fuel_fraction wing_folding_area wing_folded_span : ℝ) : ℝ :=
  ((((fuel_wing_fuel_fraction * (888889 / 1000000)) * (tc_ratio_mean_folded wing_span
    wing_thickness_to_chord_root wing_thickness_to_chord_tip wing_folded_span)) *
    ((nonfolded_wing_area wing_area wing_folding_area) ^ ((3 / 2) : ℝ))) * 2) *
    (dnftr_dtaperratio wing_area wing_span wing_taper_ratio wing_folded_span)

/-- aviary/subsystems/geometry/gasp_based/wing.py:1294 -/
noncomputable def den (wing_area wing_span wing_taper_ratio wing_folding_area wing_folded_span : ℝ) : ℝ :=
  ((nonfolded_ar wing_area wing_folding_area wing_folded_span) ^ ((1 / 2) : ℝ)) *
    (((nonfolded_taper_ratio wing_area wing_span wing_taper_ratio wing_folded_span) + 1) ^ 2)

/-- aviary/subsystems/geometry/gasp_based/wing.py:1296 -/
noncomputable def dden_dwingspan (wing_area wing_span wing_taper_ratio wing_folding_area wing_folded_span : ℝ) : ℝ :=
  ((((1 / 2) * ((nonfolded_ar wing_area wing_folding_area wing_folded_span) ^ ((-(1 / 2)) : ℝ)))
    * (dnfar_dwingspan wing_area wing_folding_area wing_folded_span)) * (((nonfolded_taper_ratio
    wing_area wing_span wing_taper_ratio wing_folded_span) + 1) ^ 2)) + (((((nonfolded_ar
    wing_area wing_folding_area wing_folded_span) ^ ((1 / 2) : ℝ)) * 2) *
    ((nonfolded_taper_ratio wing_area wing_span wing_taper_ratio wing_folded_span) + 1)) *
    (dnftr_dwingspan wing_area wing_span wing_taper_ratio wing_folded_span))

/-- aviary/subsystems/geometry/gasp_based/wing.py:1303 -/
noncomputable def dden_dy (wing_area wing_span wing_taper_ratio wing_folding_area wing_folded_span : ℝ) : ℝ :=
  ((((1 / 2) * ((nonfolded_ar wing_area wing_folding_area wing_folded_span) ^ ((-(1 / 2)) : ℝ)))
    * (dnfar_dy wing_area wing_folding_area wing_folded_span)) * (((nonfolded_taper_ratio
    wing_area wing_span wing_taper_ratio wing_folded_span) + 1) ^ 2)) + (((((nonfolded_ar
    wing_area wing_folding_area wing_folded_span) ^ ((1 / 2) : ℝ)) * 2) *
    ((nonfolded_taper_ratio wing_area wing_span wing_taper_ratio wing_folded_span) + 1)) *
    (dnftr_dy wing_area wing_span wing_taper_ratio))

/-- aviary/subsystems/geometry/gasp_based/wing.py:1307 -/
noncomputable def dden_dwingarea (wing_area wing_span wing_taper_ratio wing_folding_area wing_folded_span : ℝ) : ℝ :=
  ((((1 / 2) * ((nonfolded_ar wing_area wing_folding_area wing_folded_span) ^ ((-(1 / 2)) : ℝ)))
    * (dnfar_dwingarea wing_area wing_folding_area wing_folded_span)) * (((nonfolded_taper_ratio
    wing_area wing_span wing_taper_ratio wing_folded_span) + 1) ^ 2)) + (((((nonfolded_ar
    wing_area wing_folding_area wing_folded_span) ^ ((1 / 2) : ℝ)) * 2) *
    ((nonfolded_taper_ratio wing_area wing_span wing_taper_ratio wing_folded_span) + 1)) *
    (dnftr_dwingarea wing_area wing_span wing_taper_ratio wing_folded_span))

/-- aviary/subsystems/geometry/gasp_based/wing.py:1314 -/
noncomputable def dden_dwingfoldarea (wing_area wing_span wing_taper_ratio wing_folding_area wing_folded_span : ℝ) : ℝ :=
  (((1 / 2) * ((nonfolded_ar wing_area wing_folding_area wing_folded_span) ^ ((-(1 / 2)) : ℝ)))
    * (dnfar_dwingfoldarea wing_area wing_folding_area wing_folded_span)) *
    (((nonfolded_taper_ratio wing_area wing_span wing_taper_ratio wing_folded_span) + 1) ^ 2)

/-- aviary/subsystems/geometry/gasp_based/wing.py:1320 -/
noncomputable def dden_dtaperratio (wing_area wing_span wing_taper_ratio wing_folding_area wing_folded_span : ℝ) : ℝ :=
  ((((1 / 2) * ((nonfolded_ar wing_area wing_folding_area wing_folded_span) ^ ((-(1 / 2)) : ℝ)))
    * 0) * (((nonfolded_taper_ratio wing_area wing_span wing_taper_ratio wing_folded_span) + 1)
    ^ 2)) + (((((nonfolded_ar wing_area wing_folding_area wing_folded_span) ^ ((1 / 2) : ℝ)) *
    2) * ((nonfolded_taper_ratio wing_area wing_span wing_taper_ratio wing_folded_span) + 1)) *
    (dnftr_dtaperratio wing_area wing_span wing_taper_ratio wing_folded_span))

/-- Output `nonfolded_taper_ratio` of `WingFoldVolume.compute`, aviary/subsystems/geometry/gasp_based/wing.py:1137 -/
noncomputable def out_nonfolded_taper_ratio (wing_area wing_span wing_taper_ratio wing_folded_span : ℝ) : ℝ :=
  nonfolded_taper_ratio wing_area wing_span wing_taper_ratio wing_folded_span

/-- Output `nonfolded_wing_area` of `WingFoldVolume.compute`, aviary/subsystems/geometry/gasp_based/wing.py:1138 -/
noncomputable def out_nonfolded_wing_area (wing_area wing_folding_area : ℝ) : ℝ :=
  nonfolded_wing_area wing_area wing_folding_area

/-- Output `tc_ratio_mean_folded` of `WingFoldVolume.compute`, aviary/subsystems/geometry/gasp_based/wing.py:1139 -/
noncomputable def out_tc_ratio_mean_folded (wing_span wing_thickness_to_chord_root wing_thickness_to_chord_tip wing_folded_span : ℝ) : ℝ :=
  tc_ratio_mean_folded wing_span wing_thickness_to_chord_root wing_thickness_to_chord_tip
    wing_folded_span

/-- Output `nonfolded_ar` of `WingFoldVolume.compute`, aviary/subsystems/geometry/gasp_based/wing.py:1140 -/
noncomputable def out_nonfolded_ar (wing_area wing_folding_area wing_folded_span : ℝ) : ℝ :=
  nonfolded_ar wing_area wing_folding_area wing_folded_span

/-- Output `fuel_wing_volume_geometric_max` of `WingFoldVolume.compute`, aviary/subsystems/geometry/gasp_based/wing.py:1141 -/
noncomputable def out_fuel_wing_volume_geometric_max (wing_area wing_span wing_taper_ratio wing_thickness_to_chord_root wing_thickness_to_chord_tip fuel_wing_fuel_fraction wing_folding_area wing_folded_span : ℝ) : ℝ :=
  geometric_fuel_vol wing_area wing_span wing_taper_ratio wing_thickness_to_chord_root
    wing_thickness_to_chord_tip fuel_wing_fuel_fraction wing_folding_area wing_folded_span

/-- Partial of `nonfolded_taper_ratio` with respect to `wing_area` as set by `WingFoldVolume`, aviary/subsystems/geometry/gasp_based/wing.py:1208 -/
noncomputable def J_nonfolded_taper_ratio__wing_area (wing_area wing_span wing_taper_ratio wing_folded_span : ℝ) : ℝ :=
  dnftr_dwingarea wing_area wing_span wing_taper_ratio wing_folded_span

/-- Partial of `nonfolded_taper_ratio` with respect to `wing_span` as set by `WingFoldVolume`, aviary/subsystems/geometry/gasp_based/wing.py:1209 -/
noncomputable def J_nonfolded_taper_ratio__wing_span (wing_area wing_span wing_taper_ratio wing_folded_span : ℝ) : ℝ :=
  dnftr_dwingspan wing_area wing_span wing_taper_ratio wing_folded_span

/-- Partial of `nonfolded_taper_ratio` with respect to `wing_taper_ratio` as set by `WingFoldVolume`, aviary/subsystems/geometry/gasp_based/wing.py:1210 -/
noncomputable def J_nonfolded_taper_ratio__wing_taper_ratio (wing_area wing_span wing_taper_ratio wing_folded_span : ℝ) : ℝ :=
  dnftr_dtaperratio wing_area wing_span wing_taper_ratio wing_folded_span

/-- Partial of `nonfolded_taper_ratio` with respect to `wing_folded_span` as set by `WingFoldVolume`, aviary/subsystems/geometry/gasp_based/wing.py:1211 -/
noncomputable def J_nonfolded_taper_ratio__wing_folded_span (wing_area wing_span wing_taper_ratio : ℝ) : ℝ :=
  dnftr_dy wing_area wing_span wing_taper_ratio

/-- Partial of `nonfolded_wing_area` with respect to `wing_area` as set by `WingFoldVolume`, aviary/subsystems/geometry/gasp_based/wing.py:1216 -/
noncomputable def J_nonfolded_wing_area__wing_area : ℝ := 1

/-- Partial of `nonfolded_wing_area` with respect to `wing_folding_area` as set by `WingFoldVolume`, aviary/subsystems/geometry/gasp_based/wing.py:1217 -/
noncomputable def J_nonfolded_wing_area__wing_folding_area : ℝ := -1

/-- Partial of `tc_ratio_mean_folded` with respect to `wing_thickness_to_chord_root` as set by `WingFoldVolume`, aviary/subsystems/geometry/gasp_based/wing.py:1235 -/
noncomputable def J_tc_ratio_mean_folded__wing_thickness_to_chord_root (wing_span wing_folded_span : ℝ) : ℝ :=
  dtc_ratio_rootmeanfolded_dtc_ratio_root wing_span wing_folded_span

/-- Partial of `tc_ratio_mean_folded` with respect to `wing_thickness_to_chord_tip` as set by `WingFoldVolume`, aviary/subsystems/geometry/gasp_based/wing.py:1238 -/
noncomputable def J_tc_ratio_mean_folded__wing_thickness_to_chord_tip (wing_span wing_folded_span : ℝ) : ℝ :=
  dtc_ratio_rootmeanfolded_dtc_ratio_tip wing_span wing_folded_span

/-- Partial of `tc_ratio_mean_folded` with respect to `wing_span` as set by `WingFoldVolume`, aviary/subsystems/geometry/gasp_based/wing.py:1241 -/
noncomputable def J_tc_ratio_mean_folded__wing_span (wing_span wing_thickness_to_chord_root wing_thickness_to_chord_tip wing_folded_span : ℝ) : ℝ :=
  dtc_ratio_rootmeanfolded_dwingspan wing_span wing_thickness_to_chord_root
    wing_thickness_to_chord_tip wing_folded_span

/-- Partial of `tc_ratio_mean_folded` with respect to `wing_folded_span` as set by `WingFoldVolume`, aviary/subsystems/geometry/gasp_based/wing.py:1242 -/
noncomputable def J_tc_ratio_mean_folded__wing_folded_span (wing_span wing_thickness_to_chord_root wing_thickness_to_chord_tip : ℝ) : ℝ :=
  dtc_ratio_rootmeanfolded_dy wing_span wing_thickness_to_chord_root wing_thickness_to_chord_tip

/-- Partial of `nonfolded_ar` with respect to `wing_area` as set by `WingFoldVolume`, aviary/subsystems/geometry/gasp_based/wing.py:1251 -/
noncomputable def J_nonfolded_ar__wing_area (wing_area wing_folding_area wing_folded_span : ℝ) : ℝ :=
  dnfar_dwingarea wing_area wing_folding_area wing_folded_span

/-- Partial of `nonfolded_ar` with respect to `wing_folding_area` as set by `WingFoldVolume`, aviary/subsystems/geometry/gasp_based/wing.py:1252 -/
noncomputable def J_nonfolded_ar__wing_folding_area (wing_area wing_folding_area wing_folded_span : ℝ) : ℝ :=
  dnfar_dwingfoldarea wing_area wing_folding_area wing_folded_span

/-- Partial of `nonfolded_ar` with respect to `wing_span` as set by `WingFoldVolume`, aviary/subsystems/geometry/gasp_based/wing.py:1253 -/
noncomputable def J_nonfolded_ar__wing_span (wing_area wing_folding_area wing_folded_span : ℝ) : ℝ :=
  dnfar_dwingspan wing_area wing_folding_area wing_folded_span

/-- Partial of `nonfolded_ar` with respect to `wing_folded_span` as set by `WingFoldVolume`, aviary/subsystems/geometry/gasp_based/wing.py:1254 -/
noncomputable def J_nonfolded_ar__wing_folded_span (wing_area wing_folding_area wing_folded_span : ℝ) : ℝ :=
  dnfar_dy wing_area wing_folding_area wing_folded_span

/-- Partial of `fuel_wing_volume_geometric_max` with respect to `fuel_wing_fuel_fraction` as set by `WingFoldVolume`, aviary/subsystems/geometry/gasp_based/wing.py:1328 -/
noncomputable def J_fuel_wing_volume_geometric_max__fuel_wing_fuel_fraction (wing_area wing_span wing_taper_ratio wing_thickness_to_chord_root wing_thickness_to_chord_tip wing_folding_area wing_folded_span : ℝ) : ℝ :=
  ((((888889 / 1000000) * (tc_ratio_mean_folded wing_span wing_thickness_to_chord_root
    wing_thickness_to_chord_tip wing_folded_span)) * ((nonfolded_wing_area wing_area
    wing_folding_area) ^ ((3 / 2) : ℝ))) * ((2 * (nonfolded_taper_ratio wing_area wing_span
    wing_taper_ratio wing_folded_span)) + 1)) / (((nonfolded_ar wing_area wing_folding_area
    wing_folded_span) ^ ((1 / 2) : ℝ)) * (((nonfolded_taper_ratio wing_area wing_span
    wing_taper_ratio wing_folded_span) + 1) ^ 2))

/-- Partial of `fuel_wing_volume_geometric_max` with respect to `wing_thickness_to_chord_root` as set by `WingFoldVolume`, aviary/subsystems/geometry/gasp_based/wing.py:1334 -/
noncomputable def J_fuel_wing_volume_geometric_max__wing_thickness_to_chord_root (wing_area wing_span wing_taper_ratio fuel_wing_fuel_fraction wing_folding_area wing_folded_span : ℝ) : ℝ :=
  ((((fuel_wing_fuel_fraction * (888889 / 1000000)) * (dtc_ratio_rootmeanfolded_dtc_ratio_root
    wing_span wing_folded_span)) * ((nonfolded_wing_area wing_area wing_folding_area) ^ ((3 / 2)
    : ℝ))) * ((2 * (nonfolded_taper_ratio wing_area wing_span wing_taper_ratio
    wing_folded_span)) + 1)) / (((nonfolded_ar wing_area wing_folding_area wing_folded_span) ^
    ((1 / 2) : ℝ)) * (((nonfolded_taper_ratio wing_area wing_span wing_taper_ratio
    wing_folded_span) + 1) ^ 2))

/-- Partial of `fuel_wing_volume_geometric_max` with respect to `wing_thickness_to_chord_tip` as set by `WingFoldVolume`, aviary/subsystems/geometry/gasp_based/wing.py:1341 -/
noncomputable def J_fuel_wing_volume_geometric_max__wing_thickness_to_chord_tip (wing_area wing_span wing_taper_ratio fuel_wing_fuel_fraction wing_folding_area wing_folded_span : ℝ) : ℝ :=
  ((((fuel_wing_fuel_fraction * (888889 / 1000000)) * (dtc_ratio_rootmeanfolded_dtc_ratio_tip
    wing_span wing_folded_span)) * ((nonfolded_wing_area wing_area wing_folding_area) ^ ((3 / 2)
    : ℝ))) * ((2 * (nonfolded_taper_ratio wing_area wing_span wing_taper_ratio
    wing_folded_span)) + 1)) / (((nonfolded_ar wing_area wing_folding_area wing_folded_span) ^
    ((1 / 2) : ℝ)) * (((nonfolded_taper_ratio wing_area wing_span wing_taper_ratio
    wing_folded_span) + 1) ^ 2))

/-- Partial of `fuel_wing_volume_geometric_max` with respect to `wing_span` as set by `WingFoldVolume`, aviary/subsystems/geometry/gasp_based/wing.py:1348 -/
noncomputable def J_fuel_wing_volume_geometric_max__wing_span (wing_area wing_span wing_taper_ratio wing_thickness_to_chord_root wing_thickness_to_chord_tip fuel_wing_fuel_fraction wing_folding_area wing_folded_span : ℝ) : ℝ :=
  (((den wing_area wing_span wing_taper_ratio wing_folding_area wing_folded_span) *
    (dnum_dwingspan wing_area wing_span wing_taper_ratio wing_thickness_to_chord_root
    wing_thickness_to_chord_tip fuel_wing_fuel_fraction wing_folding_area wing_folded_span)) -
    ((num wing_area wing_span wing_taper_ratio wing_thickness_to_chord_root
    wing_thickness_to_chord_tip fuel_wing_fuel_fraction wing_folding_area wing_folded_span) *
    (dden_dwingspan wing_area wing_span wing_taper_ratio wing_folding_area wing_folded_span))) /
    ((den wing_area wing_span wing_taper_ratio wing_folding_area wing_folded_span) ^ 2)

/-- Partial of `fuel_wing_volume_geometric_max` with respect to `wing_area` as set by `WingFoldVolume`, aviary/subsystems/geometry/gasp_based/wing.py:1351 -/
noncomputable def J_fuel_wing_volume_geometric_max__wing_area (wing_area wing_span wing_taper_ratio wing_thickness_to_chord_root wing_thickness_to_chord_tip fuel_wing_fuel_fraction wing_folding_area wing_folded_span : ℝ) : ℝ :=
  (((den wing_area wing_span wing_taper_ratio wing_folding_area wing_folded_span) *
    (dnum_dwingarea wing_area wing_span wing_taper_ratio wing_thickness_to_chord_root
    wing_thickness_to_chord_tip fuel_wing_fuel_fraction wing_folding_area wing_folded_span)) -
    ((num wing_area wing_span wing_taper_ratio wing_thickness_to_chord_root
    wing_thickness_to_chord_tip fuel_wing_fuel_fraction wing_folding_area wing_folded_span) *
    (dden_dwingarea wing_area wing_span wing_taper_ratio wing_folding_area wing_folded_span))) /
    ((den wing_area wing_span wing_taper_ratio wing_folding_area wing_folded_span) ^ 2)

/-- Partial of `fuel_wing_volume_geometric_max` with respect to `wing_folding_area` as set by `WingFoldVolume`, aviary/subsystems/geometry/gasp_based/wing.py:1355 -/
noncomputable def J_fuel_wing_volume_geometric_max__wing_folding_area (wing_area wing_span wing_taper_ratio wing_thickness_to_chord_root wing_thickness_to_chord_tip fuel_wing_fuel_fraction wing_folding_area wing_folded_span : ℝ) : ℝ :=
  (((den wing_area wing_span wing_taper_ratio wing_folding_area wing_folded_span) *
    (dnum_dwingfoldarea wing_area wing_span wing_taper_ratio wing_thickness_to_chord_root
    wing_thickness_to_chord_tip fuel_wing_fuel_fraction wing_folding_area wing_folded_span)) -
    ((num wing_area wing_span wing_taper_ratio wing_thickness_to_chord_root
    wing_thickness_to_chord_tip fuel_wing_fuel_fraction wing_folding_area wing_folded_span) *
    (dden_dwingfoldarea wing_area wing_span wing_taper_ratio wing_folding_area
    wing_folded_span))) / ((den wing_area wing_span wing_taper_ratio wing_folding_area
    wing_folded_span) ^ 2)

/-- Partial of `fuel_wing_volume_geometric_max` with respect to `wing_taper_ratio` as set by `WingFoldVolume`, aviary/subsystems/geometry/gasp_based/wing.py:1359 -/
noncomputable def J_fuel_wing_volume_geometric_max__wing_taper_ratio (wing_area wing_span wing_taper_ratio wing_thickness_to_chord_root wing_thickness_to_chord_tip fuel_wing_fuel_fraction wing_folding_area wing_folded_span : ℝ) : ℝ :=
  (((den wing_area wing_span wing_taper_ratio wing_folding_area wing_folded_span) *
    (dnum_dtaperratio wing_area wing_span wing_taper_ratio wing_thickness_to_chord_root
    wing_thickness_to_chord_tip fuel_wing_fuel_fraction wing_folding_area wing_folded_span)) -
    ((num wing_area wing_span wing_taper_ratio wing_thickness_to_chord_root
    wing_thickness_to_chord_tip fuel_wing_fuel_fraction wing_folding_area wing_folded_span) *
    (dden_dtaperratio wing_area wing_span wing_taper_ratio wing_folding_area wing_folded_span)))
    / ((den wing_area wing_span wing_taper_ratio wing_folding_area wing_folded_span) ^ 2)

/-- Partial of `fuel_wing_volume_geometric_max` with respect to `wing_folded_span` as set by `WingFoldVolume`, aviary/subsystems/geometry/gasp_based/wing.py:1362 -/
noncomputable def J_fuel_wing_volume_geometric_max__wing_folded_span (wing_area wing_span wing_taper_ratio wing_thickness_to_chord_root wing_thickness_to_chord_tip fuel_wing_fuel_fraction wing_folding_area wing_folded_span : ℝ) : ℝ :=
  (((den wing_area wing_span wing_taper_ratio wing_folding_area wing_folded_span) * (dnum_dy
    wing_area wing_span wing_taper_ratio wing_thickness_to_chord_root
    wing_thickness_to_chord_tip fuel_wing_fuel_fraction wing_folding_area wing_folded_span)) -
    ((num wing_area wing_span wing_taper_ratio wing_thickness_to_chord_root
    wing_thickness_to_chord_tip fuel_wing_fuel_fraction wing_folding_area wing_folded_span) *
    (dden_dy wing_area wing_span wing_taper_ratio wing_folding_area wing_folded_span))) / ((den
    wing_area wing_span wing_taper_ratio wing_folding_area wing_folded_span) ^ 2)

theorem d_nonfolded_taper_ratio__wing_area (wing_area wing_span wing_taper_ratio wing_folded_span
    : ℝ) (h0 : 0 < wing_span) (h1 : 0 < wing_taper_ratio) (h2 : 0 < wing_area) :
    HasDerivAt (fun t => out_nonfolded_taper_ratio t wing_span wing_taper_ratio wing_folded_span) (J_nonfolded_taper_ratio__wing_area wing_area wing_span wing_taper_ratio wing_folded_span) wing_area := by
  simp only [out_nonfolded_taper_ratio, J_nonfolded_taper_ratio__wing_area, dnftr_dwingarea, dfoldchord_dwingarea, dtipchord_dwingarea, drootchordwing_dwingarea, nonfolded_taper_ratio, fold_chord, tip_chord, location, root_chord_wing]
  (apply hasDerivAt_of_eq; on_goal 1 => (repeat' comp_step))
  all_goals try comp_side
  all_goals try simp only [mul_zero, zero_mul, add_zero, zero_add, sub_zero, zero_sub, mul_one, one_mul]
  all_goals try push_cast
  all_goals comp_eq

theorem d_nonfolded_taper_ratio__wing_span (wing_area wing_span wing_taper_ratio wing_folded_span
    : ℝ) (h0 : 0 < wing_span) (h1 : 0 < wing_taper_ratio) (h2 : 0 < wing_area) :
    HasDerivAt (fun t => out_nonfolded_taper_ratio wing_area t wing_taper_ratio wing_folded_span) (J_nonfolded_taper_ratio__wing_span wing_area wing_span wing_taper_ratio wing_folded_span) wing_span := by
  simp only [out_nonfolded_taper_ratio, J_nonfolded_taper_ratio__wing_span, dnftr_dwingspan, dfoldchord_dwingspan, dtipchord_dwingspan, drootchordwing_dwingspan, nonfolded_taper_ratio, fold_chord, tip_chord, location, root_chord_wing]
  (apply hasDerivAt_of_eq; on_goal 1 => (repeat' comp_step))
  all_goals try comp_side
  all_goals try simp only [mul_zero, zero_mul, add_zero, zero_add, sub_zero, zero_sub, mul_one, one_mul]
  all_goals try push_cast
  all_goals comp_eq

theorem d_nonfolded_taper_ratio__wing_taper_ratio (wing_area wing_span wing_taper_ratio
    wing_folded_span : ℝ) (h0 : 0 < wing_span) (h1 : 0 < wing_taper_ratio) (h2 : 0 < wing_area) :
    HasDerivAt (fun t => out_nonfolded_taper_ratio wing_area wing_span t wing_folded_span) (J_nonfolded_taper_ratio__wing_taper_ratio wing_area wing_span wing_taper_ratio wing_folded_span) wing_taper_ratio := by
  simp only [out_nonfolded_taper_ratio, J_nonfolded_taper_ratio__wing_taper_ratio, dnftr_dtaperratio, dfoldchord_dtaperratio, dtipchord_dtaperratio, drootchordwing_dtaperratio, nonfolded_taper_ratio, fold_chord, tip_chord, location, root_chord_wing]
  (apply hasDerivAt_of_eq; on_goal 1 => (repeat' comp_step))
  all_goals try comp_side
  all_goals try simp only [mul_zero, zero_mul, add_zero, zero_add, sub_zero, zero_sub, mul_one, one_mul]
  all_goals try push_cast
  all_goals comp_eq

theorem d_nonfolded_taper_ratio__wing_folded_span (wing_area wing_span wing_taper_ratio
    wing_folded_span : ℝ) (h0 : 0 < wing_span) (h1 : 0 < wing_taper_ratio) (h2 : 0 < wing_area) :
    HasDerivAt (fun t => out_nonfolded_taper_ratio wing_area wing_span wing_taper_ratio t) (J_nonfolded_taper_ratio__wing_folded_span wing_area wing_span wing_taper_ratio) wing_folded_span := by
  simp only [out_nonfolded_taper_ratio, J_nonfolded_taper_ratio__wing_folded_span, dnftr_dy, dfoldchord_dy, nonfolded_taper_ratio, fold_chord, tip_chord, location, root_chord_wing]
  (apply hasDerivAt_of_eq; on_goal 1 => (repeat' comp_step))
  all_goals try comp_side
  all_goals try simp only [mul_zero, zero_mul, add_zero, zero_add, sub_zero, zero_sub, mul_one, one_mul]
  all_goals try push_cast
  all_goals comp_eq

theorem d_nonfolded_wing_area__wing_area (wing_area wing_folding_area : ℝ)  :
    HasDerivAt (fun t => out_nonfolded_wing_area t wing_folding_area) (J_nonfolded_wing_area__wing_area) wing_area := by
  simp only [out_nonfolded_wing_area, J_nonfolded_wing_area__wing_area, nonfolded_wing_area]
  (apply hasDerivAt_of_eq; on_goal 1 => (repeat' comp_step))
  all_goals try comp_side
  all_goals try simp only [mul_zero, zero_mul, add_zero, zero_add, sub_zero, zero_sub, mul_one, one_mul]
  all_goals try push_cast
  all_goals comp_eq

theorem d_nonfolded_wing_area__wing_folding_area (wing_area wing_folding_area : ℝ)  :
    HasDerivAt (fun t => out_nonfolded_wing_area wing_area t) (J_nonfolded_wing_area__wing_folding_area) wing_folding_area := by
  simp only [out_nonfolded_wing_area, J_nonfolded_wing_area__wing_folding_area, nonfolded_wing_area]
  (apply hasDerivAt_of_eq; on_goal 1 => (repeat' comp_step))
  all_goals try comp_side
  all_goals try simp only [mul_zero, zero_mul, add_zero, zero_add, sub_zero, zero_sub, mul_one, one_mul]
  all_goals try push_cast
  all_goals comp_eq

theorem d_tc_ratio_mean_folded__wing_span (wing_span wing_thickness_to_chord_root
    wing_thickness_to_chord_tip wing_folded_span : ℝ) (h0 : 0 < wing_span) :
    HasDerivAt (fun t => out_tc_ratio_mean_folded t wing_thickness_to_chord_root wing_thickness_to_chord_tip wing_folded_span) (J_tc_ratio_mean_folded__wing_span wing_span wing_thickness_to_chord_root wing_thickness_to_chord_tip wing_folded_span) wing_span := by
  simp only [out_tc_ratio_mean_folded, J_tc_ratio_mean_folded__wing_span, dtc_ratio_rootmeanfolded_dwingspan, dtc_ratio_rootatiofold_dwingspan, tc_ratio_mean_folded, tc_ratio_fold, location]
  (apply hasDerivAt_of_eq; on_goal 1 => (repeat' comp_step))
  all_goals try comp_side
  all_goals try simp only [mul_zero, zero_mul, add_zero, zero_add, sub_zero, zero_sub, mul_one, one_mul]
  all_goals try push_cast
  all_goals comp_eq

theorem d_tc_ratio_mean_folded__wing_thickness_to_chord_root (wing_span
    wing_thickness_to_chord_root wing_thickness_to_chord_tip wing_folded_span : ℝ) (h0 : 0 <
    wing_span) :
    HasDerivAt (fun t => out_tc_ratio_mean_folded wing_span t wing_thickness_to_chord_tip wing_folded_span) (J_tc_ratio_mean_folded__wing_thickness_to_chord_root wing_span wing_folded_span) wing_thickness_to_chord_root := by
  simp only [out_tc_ratio_mean_folded, J_tc_ratio_mean_folded__wing_thickness_to_chord_root, dtc_ratio_rootmeanfolded_dtc_ratio_root, dtc_ratio_rootatiofold_dtc_ratio_root, tc_ratio_mean_folded, tc_ratio_fold, location]
  (apply hasDerivAt_of_eq; on_goal 1 => (repeat' comp_step))
  all_goals try comp_side
  all_goals try simp only [mul_zero, zero_mul, add_zero, zero_add, sub_zero, zero_sub, mul_one, one_mul]
  all_goals try push_cast
  all_goals comp_eq

theorem d_tc_ratio_mean_folded__wing_thickness_to_chord_tip (wing_span
    wing_thickness_to_chord_root wing_thickness_to_chord_tip wing_folded_span : ℝ) (h0 : 0 <
    wing_span) :
    HasDerivAt (fun t => out_tc_ratio_mean_folded wing_span wing_thickness_to_chord_root t wing_folded_span) (J_tc_ratio_mean_folded__wing_thickness_to_chord_tip wing_span wing_folded_span) wing_thickness_to_chord_tip := by
  simp only [out_tc_ratio_mean_folded, J_tc_ratio_mean_folded__wing_thickness_to_chord_tip, dtc_ratio_rootmeanfolded_dtc_ratio_tip, dtc_ratio_rootatiofold_dtc_ratio_tip, tc_ratio_mean_folded, tc_ratio_fold, location]
  (apply hasDerivAt_of_eq; on_goal 1 => (repeat' comp_step))
  all_goals try comp_side
  all_goals try simp only [mul_zero, zero_mul, add_zero, zero_add, sub_zero, zero_sub, mul_one, one_mul]
  all_goals try push_cast
  all_goals comp_eq

theorem d_tc_ratio_mean_folded__wing_folded_span (wing_span wing_thickness_to_chord_root
    wing_thickness_to_chord_tip wing_folded_span : ℝ) (h0 : 0 < wing_span) :
    HasDerivAt (fun t => out_tc_ratio_mean_folded wing_span wing_thickness_to_chord_root wing_thickness_to_chord_tip t) (J_tc_ratio_mean_folded__wing_folded_span wing_span wing_thickness_to_chord_root wing_thickness_to_chord_tip) wing_folded_span := by
  simp only [out_tc_ratio_mean_folded, J_tc_ratio_mean_folded__wing_folded_span, dtc_ratio_rootmeanfolded_dy, dtc_ratio_rootatiofold_dy, tc_ratio_mean_folded, tc_ratio_fold, location]
  (apply hasDerivAt_of_eq; on_goal 1 => (repeat' comp_step))
  all_goals try comp_side
  all_goals try simp only [mul_zero, zero_mul, add_zero, zero_add, sub_zero, zero_sub, mul_one, one_mul]
  all_goals try push_cast
  all_goals comp_eq

theorem d_nonfolded_ar__wing_area (wing_area wing_folding_area wing_folded_span : ℝ) (h0 :
    wing_area - wing_folding_area ≠ 0) :
    HasDerivAt (fun t => out_nonfolded_ar t wing_folding_area wing_folded_span) (J_nonfolded_ar__wing_area wing_area wing_folding_area wing_folded_span) wing_area := by
  simp only [out_nonfolded_ar, J_nonfolded_ar__wing_area, dnfar_dwingarea, nonfolded_ar, nonfolded_wing_area, location]
  (apply hasDerivAt_of_eq; on_goal 1 => (repeat' comp_step))
  all_goals try comp_side
  all_goals try simp only [mul_zero, zero_mul, add_zero, zero_add, sub_zero, zero_sub, mul_one, one_mul]
  all_goals try push_cast
  all_goals comp_eq

theorem d_nonfolded_ar__wing_span (wing_area wing_span wing_folding_area wing_folded_span : ℝ) (h0
    : wing_area - wing_folding_area ≠ 0) :
    HasDerivAt (fun t => out_nonfolded_ar wing_area wing_folding_area wing_folded_span) (J_nonfolded_ar__wing_span wing_area wing_folding_area wing_folded_span) wing_span := by
  simp only [out_nonfolded_ar, J_nonfolded_ar__wing_span, dnfar_dwingspan, nonfolded_ar, nonfolded_wing_area, location]
  (apply hasDerivAt_of_eq; on_goal 1 => (repeat' comp_step))
  all_goals try comp_side
  all_goals try simp only [mul_zero, zero_mul, add_zero, zero_add, sub_zero, zero_sub, mul_one, one_mul]
  all_goals try push_cast
  all_goals comp_eq

theorem d_nonfolded_ar__wing_folding_area (wing_area wing_folding_area wing_folded_span : ℝ) (h0 :
    wing_area - wing_folding_area ≠ 0) :
    HasDerivAt (fun t => out_nonfolded_ar wing_area t wing_folded_span) (J_nonfolded_ar__wing_folding_area wing_area wing_folding_area wing_folded_span) wing_folding_area := by
  simp only [out_nonfolded_ar, J_nonfolded_ar__wing_folding_area, dnfar_dwingfoldarea, nonfolded_ar, nonfolded_wing_area, location]
  (apply hasDerivAt_of_eq; on_goal 1 => (repeat' comp_step))
  all_goals try comp_side
  all_goals try simp only [mul_zero, zero_mul, add_zero, zero_add, sub_zero, zero_sub, mul_one, one_mul]
  all_goals try push_cast
  all_goals comp_eq

theorem d_nonfolded_ar__wing_folded_span (wing_area wing_folding_area wing_folded_span : ℝ) (h0 :
    wing_area - wing_folding_area ≠ 0) :
    HasDerivAt (fun t => out_nonfolded_ar wing_area wing_folding_area t) (J_nonfolded_ar__wing_folded_span wing_area wing_folding_area wing_folded_span) wing_folded_span := by
  simp only [out_nonfolded_ar, J_nonfolded_ar__wing_folded_span, dnfar_dy, nonfolded_ar, nonfolded_wing_area, location]
  (apply hasDerivAt_of_eq; on_goal 1 => (repeat' comp_step))
  all_goals try comp_side
  all_goals try simp only [mul_zero, zero_mul, add_zero, zero_add, sub_zero, zero_sub, mul_one, one_mul]
  all_goals try push_cast
  all_goals comp_eq

theorem d_fuel_wing_volume_geometric_max__wing_area (wing_area wing_span wing_taper_ratio
    wing_thickness_to_chord_root wing_thickness_to_chord_tip fuel_wing_fuel_fraction
    wing_folding_area wing_folded_span : ℝ) (h0 : 0 < wing_span) (h1 : 0 < wing_area -
    wing_folding_area) (h2 : 0 < wing_taper_ratio) (h3 : 0 < wing_area) (h4 : wing_area -
    wing_folding_area ≠ 0) (h5 : 0 < wing_folded_span) (h6 : 0 < ((2 * wing_area) / (wing_span *
    (1 + wing_taper_ratio))) + (((wing_folded_span / 2) * ((wing_taper_ratio * ((2 * wing_area) /
    (wing_span * (1 + wing_taper_ratio)))) - ((2 * wing_area) / (wing_span * (1 +
    wing_taper_ratio))))) / (wing_span / 2))) :
    HasDerivAt (fun t => out_fuel_wing_volume_geometric_max t wing_span wing_taper_ratio wing_thickness_to_chord_root wing_thickness_to_chord_tip fuel_wing_fuel_fraction wing_folding_area wing_folded_span) (J_fuel_wing_volume_geometric_max__wing_area wing_area wing_span wing_taper_ratio wing_thickness_to_chord_root wing_thickness_to_chord_tip fuel_wing_fuel_fraction wing_folding_area wing_folded_span) wing_area := by
  have hf6 : 0 < (root_chord_wing wing_area wing_span wing_taper_ratio) + (((location wing_folded_span) * ((tip_chord wing_area wing_span wing_taper_ratio) - (root_chord_wing wing_area wing_span wing_taper_ratio))) / (wing_span / 2)) := by simp only [dden_dwingarea, dnfar_dwingarea, num, a, dnum_dwingarea, dnftr_dwingarea, dfoldchord_dwingarea, dtipchord_dwingarea, drootchordwing_dwingarea, tc_ratio_mean_folded, tc_ratio_fold, den, nonfolded_taper_ratio, fold_chord, tip_chord, root_chord_wing, nonfolded_ar, nonfolded_wing_area, location, geometric_fuel_vol]; exact h6
  have hp0 : root_chord_wing wing_area wing_span wing_taper_ratio ≠ 0 := by simp only [dden_dwingarea, dnfar_dwingarea, num, a, dnum_dwingarea, dnftr_dwingarea, dfoldchord_dwingarea, dtipchord_dwingarea, drootchordwing_dwingarea, tc_ratio_mean_folded, tc_ratio_fold, den, nonfolded_taper_ratio, fold_chord, tip_chord, root_chord_wing, nonfolded_ar, nonfolded_wing_area, location, geometric_fuel_vol]; comp_side
  have hp1 : nonfolded_wing_area wing_area wing_folding_area ≠ 0 := by simp only [dden_dwingarea, dnfar_dwingarea, num, a, dnum_dwingarea, dnftr_dwingarea, dfoldchord_dwingarea, dtipchord_dwingarea, drootchordwing_dwingarea, tc_ratio_mean_folded, tc_ratio_fold, den, nonfolded_taper_ratio, fold_chord, tip_chord, root_chord_wing, nonfolded_ar, nonfolded_wing_area, location, geometric_fuel_vol]; comp_side
  have hp2 : 0 < nonfolded_wing_area wing_area wing_folding_area := by simp only [dden_dwingarea, dnfar_dwingarea, num, a, dnum_dwingarea, dnftr_dwingarea, dfoldchord_dwingarea, dtipchord_dwingarea, drootchordwing_dwingarea, tc_ratio_mean_folded, tc_ratio_fold, den, nonfolded_taper_ratio, fold_chord, tip_chord, root_chord_wing, nonfolded_ar, nonfolded_wing_area, location, geometric_fuel_vol]; comp_side
  have hp3 : 0 < nonfolded_ar wing_area wing_folding_area wing_folded_span := by simp only [dden_dwingarea, dnfar_dwingarea, num, a, dnum_dwingarea, dnftr_dwingarea, dfoldchord_dwingarea, dtipchord_dwingarea, drootchordwing_dwingarea, tc_ratio_mean_folded, tc_ratio_fold, den, nonfolded_taper_ratio, fold_chord, tip_chord, root_chord_wing, nonfolded_ar, nonfolded_wing_area, location, geometric_fuel_vol]; comp_side
  have hp4 : 0 < nonfolded_taper_ratio wing_area wing_span wing_taper_ratio wing_folded_span := by simp only [dden_dwingarea, dnfar_dwingarea, num, a, dnum_dwingarea, dnftr_dwingarea, dfoldchord_dwingarea, dtipchord_dwingarea, drootchordwing_dwingarea, tc_ratio_mean_folded, tc_ratio_fold, den, nonfolded_taper_ratio, fold_chord, tip_chord, root_chord_wing, nonfolded_ar, nonfolded_wing_area, location, geometric_fuel_vol]; comp_side
  have hp5 : den wing_area wing_span wing_taper_ratio wing_folding_area wing_folded_span ≠ 0 := by simp only [dden_dwingarea, dnfar_dwingarea, num, a, dnum_dwingarea, dnftr_dwingarea, dfoldchord_dwingarea, dtipchord_dwingarea, drootchordwing_dwingarea, tc_ratio_mean_folded, tc_ratio_fold, den, nonfolded_taper_ratio, fold_chord, tip_chord, root_chord_wing, nonfolded_ar, nonfolded_wing_area, location, geometric_fuel_vol]; comp_side
  have e0 : ∀ x : ℝ, 0 < x → x ^ ((-(1 / 2)) : ℝ) = x ^ ((1 / 2) : ℝ) / x ^ 1 := fun x hx => rpow_down hx 1 (by norm_num)
  have e1 : ∀ x : ℝ, 0 < x → x ^ ((3 / 2) : ℝ) = x ^ ((1 / 2) : ℝ) * x ^ 1 := fun x hx => rpow_up hx 1 (by norm_num)
  obtain ⟨D_nonfolded_wing_area, hD_nonfolded_wing_area, k_nonfolded_wing_area⟩ : ∃ D : ℝ, D = 1 ∧
      HasDerivAt (fun t => nonfolded_wing_area t wing_folding_area) D wing_area := by
    refine ⟨_, rfl, ?_⟩
    simp only [nonfolded_wing_area]
    apply hasDerivAt_of_eq; on_goal 1 => (repeat' comp_step)
    all_goals try first | comp_side | (apply HasDerivAt.continuousAt; (repeat' comp_step); all_goals comp_side)
    all_goals try simp (disch := first | assumption | positivity) only [e0, e1, div_mul_eq_div_div, div_half, inv_half]
    all_goals try simp only [mul_zero, zero_mul, add_zero, zero_add, sub_zero, zero_sub, mul_one, one_mul, sub_self]
    all_goals try push_cast
    all_goals comp_eq
  obtain ⟨D_root_chord_wing, hD_root_chord_wing, k_root_chord_wing⟩ : ∃ D : ℝ, D = 2 / (wing_span * (1 + wing_taper_ratio)) ∧
      HasDerivAt (fun t => root_chord_wing t wing_span wing_taper_ratio) D wing_area := by
    refine ⟨_, rfl, ?_⟩
    simp only [root_chord_wing]
    apply hasDerivAt_of_eq; on_goal 1 => (repeat' comp_step)
    all_goals try first | comp_side | (apply HasDerivAt.continuousAt; (repeat' comp_step); all_goals comp_side)
    all_goals try simp (disch := first | assumption | positivity) only [e0, e1, div_mul_eq_div_div, div_half, inv_half]
    all_goals try simp only [mul_zero, zero_mul, add_zero, zero_add, sub_zero, zero_sub, mul_one, one_mul, sub_self]
    all_goals try push_cast
    all_goals comp_eq
  obtain ⟨D_tip_chord, hD_tip_chord, k_tip_chord⟩ : ∃ D : ℝ, D = wing_taper_ratio * D_root_chord_wing ∧
      HasDerivAt (fun t => tip_chord t wing_span wing_taper_ratio) D wing_area := by
    refine ⟨_, rfl, ?_⟩
    simp only [tip_chord]
    apply hasDerivAt_of_eq; on_goal 1 => (repeat' comp_step)
    all_goals try first | comp_side | (apply HasDerivAt.continuousAt; (repeat' comp_step); all_goals comp_side)
    all_goals try simp (disch := first | assumption | positivity) only [e0, e1, div_mul_eq_div_div, div_half, inv_half]
    all_goals try simp only [mul_zero, zero_mul, add_zero, zero_add, sub_zero, zero_sub, mul_one, one_mul, sub_self]
    all_goals try push_cast
    all_goals comp_eq
  obtain ⟨D_fold_chord, hD_fold_chord, k_fold_chord⟩ : ∃ D : ℝ, D = D_root_chord_wing + (((location wing_folded_span) * (D_tip_chord - D_root_chord_wing)) / (wing_span / 2)) ∧
      HasDerivAt (fun t => fold_chord t wing_span wing_taper_ratio wing_folded_span) D wing_area := by
    refine ⟨_, rfl, ?_⟩
    simp only [fold_chord]
    apply hasDerivAt_of_eq; on_goal 1 => (repeat' comp_step)
    all_goals try first | comp_side | (apply HasDerivAt.continuousAt; (repeat' comp_step); all_goals comp_side)
    all_goals try simp (disch := first | assumption | positivity) only [e0, e1, div_mul_eq_div_div, div_half, inv_half]
    all_goals try simp only [mul_zero, zero_mul, add_zero, zero_add, sub_zero, zero_sub, mul_one, one_mul, sub_self]
    all_goals try push_cast
    all_goals comp_eq
  obtain ⟨D_nonfolded_taper_ratio, hD_nonfolded_taper_ratio, k_nonfolded_taper_ratio⟩ : ∃ D : ℝ, D = ((D_fold_chord * (root_chord_wing wing_area wing_span wing_taper_ratio)) - ((fold_chord wing_area wing_span wing_taper_ratio wing_folded_span) * D_root_chord_wing)) / ((root_chord_wing wing_area wing_span wing_taper_ratio) ^ 2) ∧
      HasDerivAt (fun t => nonfolded_taper_ratio t wing_span wing_taper_ratio wing_folded_span) D wing_area := by
    refine ⟨_, rfl, ?_⟩
    simp only [nonfolded_taper_ratio]
    apply hasDerivAt_of_eq; on_goal 1 => (repeat' comp_step)
    all_goals try first | comp_side | (apply HasDerivAt.continuousAt; (repeat' comp_step); all_goals comp_side)
    all_goals try simp (disch := first | assumption | positivity) only [e0, e1, div_mul_eq_div_div, div_half, inv_half]
    all_goals try simp only [mul_zero, zero_mul, add_zero, zero_add, sub_zero, zero_sub, mul_one, one_mul, sub_self]
    all_goals try push_cast
    all_goals comp_eq
  obtain ⟨D_nonfolded_ar, hD_nonfolded_ar, k_nonfolded_ar⟩ : ∃ D : ℝ, D = -(((4 * ((location wing_folded_span) ^ 2)) * D_nonfolded_wing_area) / ((nonfolded_wing_area wing_area wing_folding_area) ^ 2)) ∧
      HasDerivAt (fun t => nonfolded_ar t wing_folding_area wing_folded_span) D wing_area := by
    refine ⟨_, rfl, ?_⟩
    simp only [nonfolded_ar]
    apply hasDerivAt_of_eq; on_goal 1 => (repeat' comp_step)
    all_goals try first | comp_side | (apply HasDerivAt.continuousAt; (repeat' comp_step); all_goals comp_side)
    all_goals try simp (disch := first | assumption | positivity) only [e0, e1, div_mul_eq_div_div, div_half, inv_half]
    all_goals try simp only [mul_zero, zero_mul, add_zero, zero_add, sub_zero, zero_sub, mul_one, one_mul, sub_self]
    all_goals try push_cast
    all_goals comp_eq
  obtain ⟨D_geometric_fuel_vol, hD_geometric_fuel_vol, k_geometric_fuel_vol⟩ : ∃ D : ℝ, D = (((((((fuel_wing_fuel_fraction * (888889 / 1000000)) * (tc_ratio_mean_folded wing_span wing_thickness_to_chord_root wing_thickness_to_chord_tip wing_folded_span)) * (((3 / 2) * ((nonfolded_wing_area wing_area wing_folding_area) ^ ((1 / 2) : ℝ))) * D_nonfolded_wing_area)) * ((2 * (nonfolded_taper_ratio wing_area wing_span wing_taper_ratio wing_folded_span)) + 1)) + ((((fuel_wing_fuel_fraction * (888889 / 1000000)) * (tc_ratio_mean_folded wing_span wing_thickness_to_chord_root wing_thickness_to_chord_tip wing_folded_span)) * ((nonfolded_wing_area wing_area wing_folding_area) ^ ((3 / 2) : ℝ))) * (2 * D_nonfolded_taper_ratio))) * (((nonfolded_ar wing_area wing_folding_area wing_folded_span) ^ ((1 / 2) : ℝ)) * (((nonfolded_taper_ratio wing_area wing_span wing_taper_ratio wing_folded_span) + 1) ^ 2))) - (((((fuel_wing_fuel_fraction * (888889 / 1000000)) * (tc_ratio_mean_folded wing_span wing_thickness_to_chord_root wing_thickness_to_chord_tip wing_folded_span)) * ((nonfolded_wing_area wing_area wing_folding_area) ^ ((3 / 2) : ℝ))) * ((2 * (nonfolded_taper_ratio wing_area wing_span wing_taper_ratio wing_folded_span)) + 1)) * (((((1 / 2) * ((nonfolded_ar wing_area wing_folding_area wing_folded_span) ^ ((-(1 / 2)) : ℝ))) * D_nonfolded_ar) * (((nonfolded_taper_ratio wing_area wing_span wing_taper_ratio wing_folded_span) + 1) ^ 2)) + (((nonfolded_ar wing_area wing_folding_area wing_folded_span) ^ ((1 / 2) : ℝ)) * ((2 * (((nonfolded_taper_ratio wing_area wing_span wing_taper_ratio wing_folded_span) + 1) ^ 1)) * D_nonfolded_taper_ratio))))) / ((((nonfolded_ar wing_area wing_folding_area wing_folded_span) ^ ((1 / 2) : ℝ)) * (((nonfolded_taper_ratio wing_area wing_span wing_taper_ratio wing_folded_span) + 1) ^ 2)) ^ 2) ∧
      HasDerivAt (fun t => geometric_fuel_vol t wing_span wing_taper_ratio wing_thickness_to_chord_root wing_thickness_to_chord_tip fuel_wing_fuel_fraction wing_folding_area wing_folded_span) D wing_area := by
    refine ⟨_, rfl, ?_⟩
    simp only [geometric_fuel_vol]
    apply hasDerivAt_of_eq; on_goal 1 => (repeat' comp_step)
    all_goals try first | comp_side | (apply HasDerivAt.continuousAt; (repeat' comp_step); all_goals comp_side)
    all_goals try simp (disch := first | assumption | positivity) only [e0, e1, div_mul_eq_div_div, div_half, inv_half]
    all_goals try simp only [mul_zero, zero_mul, add_zero, zero_add, sub_zero, zero_sub, mul_one, one_mul, sub_self]
    all_goals try push_cast
    all_goals comp_eq
  try simp only [out_fuel_wing_volume_geometric_max, J_fuel_wing_volume_geometric_max__wing_area, dden_dwingarea, dnfar_dwingarea, num, a, dnum_dwingarea, dnftr_dwingarea, dfoldchord_dwingarea, dtipchord_dwingarea, drootchordwing_dwingarea, den]
  all_goals (apply hasDerivAt_of_eq; on_goal 1 => (repeat' comp_step))
  all_goals try first | comp_side | (apply HasDerivAt.continuousAt; (repeat' comp_step); all_goals comp_side)
  all_goals try simp only [hD_nonfolded_wing_area, hD_root_chord_wing, hD_tip_chord, hD_fold_chord, hD_nonfolded_taper_ratio, hD_nonfolded_ar, hD_geometric_fuel_vol]
  all_goals try simp (disch := first | assumption | positivity) only [e0, e1, div_mul_eq_div_div, div_half, inv_half]
  all_goals try simp only [mul_zero, zero_mul, add_zero, zero_add, sub_zero, zero_sub, mul_one, one_mul, sub_self]
  all_goals try push_cast
  all_goals comp_eq

theorem d_fuel_wing_volume_geometric_max__wing_span (wing_area wing_span wing_taper_ratio
    wing_thickness_to_chord_root wing_thickness_to_chord_tip fuel_wing_fuel_fraction
    wing_folding_area wing_folded_span : ℝ) (h0 : 0 < wing_span) (h1 : 0 < wing_area -
    wing_folding_area) (h2 : 0 < wing_taper_ratio) (h3 : 0 < wing_area) (h4 : wing_area -
    wing_folding_area ≠ 0) (h5 : 0 < wing_folded_span) (h6 : 0 < ((2 * wing_area) / (wing_span *
    (1 + wing_taper_ratio))) + (((wing_folded_span / 2) * ((wing_taper_ratio * ((2 * wing_area) /
    (wing_span * (1 + wing_taper_ratio)))) - ((2 * wing_area) / (wing_span * (1 +
    wing_taper_ratio))))) / (wing_span / 2))) :
    HasDerivAt (fun t => out_fuel_wing_volume_geometric_max wing_area t wing_taper_ratio wing_thickness_to_chord_root wing_thickness_to_chord_tip fuel_wing_fuel_fraction wing_folding_area wing_folded_span) (J_fuel_wing_volume_geometric_max__wing_span wing_area wing_span wing_taper_ratio wing_thickness_to_chord_root wing_thickness_to_chord_tip fuel_wing_fuel_fraction wing_folding_area wing_folded_span) wing_span := by
  have hf6 : 0 < (root_chord_wing wing_area wing_span wing_taper_ratio) + (((location wing_folded_span) * ((tip_chord wing_area wing_span wing_taper_ratio) - (root_chord_wing wing_area wing_span wing_taper_ratio))) / (wing_span / 2)) := by simp only [dden_dwingspan, dnfar_dwingspan, num, dnum_dwingspan, da_dwingspan, dnftr_dwingspan, dfoldchord_dwingspan, dtipchord_dwingspan, drootchordwing_dwingspan, tc_ratio_mean_folded, tc_ratio_fold, a, dtc_ratio_rootmeanfolded_dwingspan, dtc_ratio_rootatiofold_dwingspan, den, nonfolded_taper_ratio, fold_chord, tip_chord, root_chord_wing, nonfolded_ar, nonfolded_wing_area, location, geometric_fuel_vol]; exact h6
  have hp0 : root_chord_wing wing_area wing_span wing_taper_ratio ≠ 0 := by simp only [dden_dwingspan, dnfar_dwingspan, num, dnum_dwingspan, da_dwingspan, dnftr_dwingspan, dfoldchord_dwingspan, dtipchord_dwingspan, drootchordwing_dwingspan, tc_ratio_mean_folded, tc_ratio_fold, a, dtc_ratio_rootmeanfolded_dwingspan, dtc_ratio_rootatiofold_dwingspan, den, nonfolded_taper_ratio, fold_chord, tip_chord, root_chord_wing, nonfolded_ar, nonfolded_wing_area, location, geometric_fuel_vol]; comp_side
  have hp1 : nonfolded_wing_area wing_area wing_folding_area ≠ 0 := by simp only [dden_dwingspan, dnfar_dwingspan, num, dnum_dwingspan, da_dwingspan, dnftr_dwingspan, dfoldchord_dwingspan, dtipchord_dwingspan, drootchordwing_dwingspan, tc_ratio_mean_folded, tc_ratio_fold, a, dtc_ratio_rootmeanfolded_dwingspan, dtc_ratio_rootatiofold_dwingspan, den, nonfolded_taper_ratio, fold_chord, tip_chord, root_chord_wing, nonfolded_ar, nonfolded_wing_area, location, geometric_fuel_vol]; comp_side
  have hp2 : 0 < nonfolded_wing_area wing_area wing_folding_area := by simp only [dden_dwingspan, dnfar_dwingspan, num, dnum_dwingspan, da_dwingspan, dnftr_dwingspan, dfoldchord_dwingspan, dtipchord_dwingspan, drootchordwing_dwingspan, tc_ratio_mean_folded, tc_ratio_fold, a, dtc_ratio_rootmeanfolded_dwingspan, dtc_ratio_rootatiofold_dwingspan, den, nonfolded_taper_ratio, fold_chord, tip_chord, root_chord_wing, nonfolded_ar, nonfolded_wing_area, location, geometric_fuel_vol]; comp_side
  have hp3 : 0 < nonfolded_ar wing_area wing_folding_area wing_folded_span := by simp only [dden_dwingspan, dnfar_dwingspan, num, dnum_dwingspan, da_dwingspan, dnftr_dwingspan, dfoldchord_dwingspan, dtipchord_dwingspan, drootchordwing_dwingspan, tc_ratio_mean_folded, tc_ratio_fold, a, dtc_ratio_rootmeanfolded_dwingspan, dtc_ratio_rootatiofold_dwingspan, den, nonfolded_taper_ratio, fold_chord, tip_chord, root_chord_wing, nonfolded_ar, nonfolded_wing_area, location, geometric_fuel_vol]; comp_side
  have hp4 : 0 < nonfolded_taper_ratio wing_area wing_span wing_taper_ratio wing_folded_span := by simp only [dden_dwingspan, dnfar_dwingspan, num, dnum_dwingspan, da_dwingspan, dnftr_dwingspan, dfoldchord_dwingspan, dtipchord_dwingspan, drootchordwing_dwingspan, tc_ratio_mean_folded, tc_ratio_fold, a, dtc_ratio_rootmeanfolded_dwingspan, dtc_ratio_rootatiofold_dwingspan, den, nonfolded_taper_ratio, fold_chord, tip_chord, root_chord_wing, nonfolded_ar, nonfolded_wing_area, location, geometric_fuel_vol]; comp_side
  have hp5 : den wing_area wing_span wing_taper_ratio wing_folding_area wing_folded_span ≠ 0 := by simp only [dden_dwingspan, dnfar_dwingspan, num, dnum_dwingspan, da_dwingspan, dnftr_dwingspan, dfoldchord_dwingspan, dtipchord_dwingspan, drootchordwing_dwingspan, tc_ratio_mean_folded, tc_ratio_fold, a, dtc_ratio_rootmeanfolded_dwingspan, dtc_ratio_rootatiofold_dwingspan, den, nonfolded_taper_ratio, fold_chord, tip_chord, root_chord_wing, nonfolded_ar, nonfolded_wing_area, location, geometric_fuel_vol]; comp_side
  have e0 : ∀ x : ℝ, 0 < x → x ^ ((-(1 / 2)) : ℝ) = x ^ ((1 / 2) : ℝ) / x ^ 1 := fun x hx => rpow_down hx 1 (by norm_num)
  have e1 : ∀ x : ℝ, 0 < x → x ^ ((3 / 2) : ℝ) = x ^ ((1 / 2) : ℝ) * x ^ 1 := fun x hx => rpow_up hx 1 (by norm_num)
  obtain ⟨D_tc_ratio_fold, hD_tc_ratio_fold, k_tc_ratio_fold⟩ : ∃ D : ℝ, D = -((((location wing_folded_span) * (wing_thickness_to_chord_tip - wing_thickness_to_chord_root)) * (1 / 2)) / ((wing_span / 2) ^ 2)) ∧
      HasDerivAt (fun t => tc_ratio_fold t wing_thickness_to_chord_root wing_thickness_to_chord_tip wing_folded_span) D wing_span := by
    refine ⟨_, rfl, ?_⟩
    simp only [tc_ratio_fold]
    apply hasDerivAt_of_eq; on_goal 1 => (repeat' comp_step)
    all_goals try first | comp_side | (apply HasDerivAt.continuousAt; (repeat' comp_step); all_goals comp_side)
    all_goals try simp (disch := first | assumption | positivity) only [e0, e1, div_mul_eq_div_div, div_half, inv_half]
    all_goals try simp only [mul_zero, zero_mul, add_zero, zero_add, sub_zero, zero_sub, mul_one, one_mul, sub_self]
    all_goals try push_cast
    all_goals comp_eq
  obtain ⟨D_tc_ratio_mean_folded, hD_tc_ratio_mean_folded, k_tc_ratio_mean_folded⟩ : ∃ D : ℝ, D = (1 / 2) * D_tc_ratio_fold ∧
      HasDerivAt (fun t => tc_ratio_mean_folded t wing_thickness_to_chord_root wing_thickness_to_chord_tip wing_folded_span) D wing_span := by
    refine ⟨_, rfl, ?_⟩
    simp only [tc_ratio_mean_folded]
    apply hasDerivAt_of_eq; on_goal 1 => (repeat' comp_step)
    all_goals try first | comp_side | (apply HasDerivAt.continuousAt; (repeat' comp_step); all_goals comp_side)
    all_goals try simp (disch := first | assumption | positivity) only [e0, e1, div_mul_eq_div_div, div_half, inv_half]
    all_goals try simp only [mul_zero, zero_mul, add_zero, zero_add, sub_zero, zero_sub, mul_one, one_mul, sub_self]
    all_goals try push_cast
    all_goals comp_eq
  obtain ⟨D_root_chord_wing, hD_root_chord_wing, k_root_chord_wing⟩ : ∃ D : ℝ, D = -(((2 * wing_area) * (1 + wing_taper_ratio)) / ((wing_span * (1 + wing_taper_ratio)) ^ 2)) ∧
      HasDerivAt (fun t => root_chord_wing wing_area t wing_taper_ratio) D wing_span := by
    refine ⟨_, rfl, ?_⟩
    simp only [root_chord_wing]
    apply hasDerivAt_of_eq; on_goal 1 => (repeat' comp_step)
    all_goals try first | comp_side | (apply HasDerivAt.continuousAt; (repeat' comp_step); all_goals comp_side)
    all_goals try simp (disch := first | assumption | positivity) only [e0, e1, div_mul_eq_div_div, div_half, inv_half]
    all_goals try simp only [mul_zero, zero_mul, add_zero, zero_add, sub_zero, zero_sub, mul_one, one_mul, sub_self]
    all_goals try push_cast
    all_goals comp_eq
  obtain ⟨D_tip_chord, hD_tip_chord, k_tip_chord⟩ : ∃ D : ℝ, D = wing_taper_ratio * D_root_chord_wing ∧
      HasDerivAt (fun t => tip_chord wing_area t wing_taper_ratio) D wing_span := by
    refine ⟨_, rfl, ?_⟩
    simp only [tip_chord]
    apply hasDerivAt_of_eq; on_goal 1 => (repeat' comp_step)
    all_goals try first | comp_side | (apply HasDerivAt.continuousAt; (repeat' comp_step); all_goals comp_side)
    all_goals try simp (disch := first | assumption | positivity) only [e0, e1, div_mul_eq_div_div, div_half, inv_half]
    all_goals try simp only [mul_zero, zero_mul, add_zero, zero_add, sub_zero, zero_sub, mul_one, one_mul, sub_self]
    all_goals try push_cast
    all_goals comp_eq
  obtain ⟨D_fold_chord, hD_fold_chord, k_fold_chord⟩ : ∃ D : ℝ, D = D_root_chord_wing + (((((location wing_folded_span) * (D_tip_chord - D_root_chord_wing)) * (wing_span / 2)) - (((location wing_folded_span) * ((tip_chord wing_area wing_span wing_taper_ratio) - (root_chord_wing wing_area wing_span wing_taper_ratio))) * (1 / 2))) / ((wing_span / 2) ^ 2)) ∧
      HasDerivAt (fun t => fold_chord wing_area t wing_taper_ratio wing_folded_span) D wing_span := by
    refine ⟨_, rfl, ?_⟩
    simp only [fold_chord]
    apply hasDerivAt_of_eq; on_goal 1 => (repeat' comp_step)
    all_goals try first | comp_side | (apply HasDerivAt.continuousAt; (repeat' comp_step); all_goals comp_side)
    all_goals try simp (disch := first | assumption | positivity) only [e0, e1, div_mul_eq_div_div, div_half, inv_half]
    all_goals try simp only [mul_zero, zero_mul, add_zero, zero_add, sub_zero, zero_sub, mul_one, one_mul, sub_self]
    all_goals try push_cast
    all_goals comp_eq
  obtain ⟨D_nonfolded_taper_ratio, hD_nonfolded_taper_ratio, k_nonfolded_taper_ratio⟩ : ∃ D : ℝ, D = ((D_fold_chord * (root_chord_wing wing_area wing_span wing_taper_ratio)) - ((fold_chord wing_area wing_span wing_taper_ratio wing_folded_span) * D_root_chord_wing)) / ((root_chord_wing wing_area wing_span wing_taper_ratio) ^ 2) ∧
      HasDerivAt (fun t => nonfolded_taper_ratio wing_area t wing_taper_ratio wing_folded_span) D wing_span := by
    refine ⟨_, rfl, ?_⟩
    simp only [nonfolded_taper_ratio]
    apply hasDerivAt_of_eq; on_goal 1 => (repeat' comp_step)
    all_goals try first | comp_side | (apply HasDerivAt.continuousAt; (repeat' comp_step); all_goals comp_side)
    all_goals try simp (disch := first | assumption | positivity) only [e0, e1, div_mul_eq_div_div, div_half, inv_half]
    all_goals try simp only [mul_zero, zero_mul, add_zero, zero_add, sub_zero, zero_sub, mul_one, one_mul, sub_self]
    all_goals try push_cast
    all_goals comp_eq
  obtain ⟨D_geometric_fuel_vol, hD_geometric_fuel_vol, k_geometric_fuel_vol⟩ : ∃ D : ℝ, D = (((((((fuel_wing_fuel_fraction * (888889 / 1000000)) * D_tc_ratio_mean_folded) * ((nonfolded_wing_area wing_area wing_folding_area) ^ ((3 / 2) : ℝ))) * ((2 * (nonfolded_taper_ratio wing_area wing_span wing_taper_ratio wing_folded_span)) + 1)) + ((((fuel_wing_fuel_fraction * (888889 / 1000000)) * (tc_ratio_mean_folded wing_span wing_thickness_to_chord_root wing_thickness_to_chord_tip wing_folded_span)) * ((nonfolded_wing_area wing_area wing_folding_area) ^ ((3 / 2) : ℝ))) * (2 * D_nonfolded_taper_ratio))) * (((nonfolded_ar wing_area wing_folding_area wing_folded_span) ^ ((1 / 2) : ℝ)) * (((nonfolded_taper_ratio wing_area wing_span wing_taper_ratio wing_folded_span) + 1) ^ 2))) - (((((fuel_wing_fuel_fraction * (888889 / 1000000)) * (tc_ratio_mean_folded wing_span wing_thickness_to_chord_root wing_thickness_to_chord_tip wing_folded_span)) * ((nonfolded_wing_area wing_area wing_folding_area) ^ ((3 / 2) : ℝ))) * ((2 * (nonfolded_taper_ratio wing_area wing_span wing_taper_ratio wing_folded_span)) + 1)) * (((nonfolded_ar wing_area wing_folding_area wing_folded_span) ^ ((1 / 2) : ℝ)) * ((2 * (((nonfolded_taper_ratio wing_area wing_span wing_taper_ratio wing_folded_span) + 1) ^ 1)) * D_nonfolded_taper_ratio)))) / ((((nonfolded_ar wing_area wing_folding_area wing_folded_span) ^ ((1 / 2) : ℝ)) * (((nonfolded_taper_ratio wing_area wing_span wing_taper_ratio wing_folded_span) + 1) ^ 2)) ^ 2) ∧
      HasDerivAt (fun t => geometric_fuel_vol wing_area t wing_taper_ratio wing_thickness_to_chord_root wing_thickness_to_chord_tip fuel_wing_fuel_fraction wing_folding_area wing_folded_span) D wing_span := by
    refine ⟨_, rfl, ?_⟩
    simp only [geometric_fuel_vol]
    apply hasDerivAt_of_eq; on_goal 1 => (repeat' comp_step)
    all_goals try first | comp_side | (apply HasDerivAt.continuousAt; (repeat' comp_step); all_goals comp_side)
    all_goals try simp (disch := first | assumption | positivity) only [e0, e1, div_mul_eq_div_div, div_half, inv_half]
    all_goals try simp only [mul_zero, zero_mul, add_zero, zero_add, sub_zero, zero_sub, mul_one, one_mul, sub_self]
    all_goals try push_cast
    all_goals comp_eq
  try simp only [out_fuel_wing_volume_geometric_max, J_fuel_wing_volume_geometric_max__wing_span, dden_dwingspan, dnfar_dwingspan, num, dnum_dwingspan, da_dwingspan, dnftr_dwingspan, dfoldchord_dwingspan, dtipchord_dwingspan, drootchordwing_dwingspan, a, dtc_ratio_rootmeanfolded_dwingspan, dtc_ratio_rootatiofold_dwingspan, den]
  all_goals (apply hasDerivAt_of_eq; on_goal 1 => (repeat' comp_step))
  all_goals try first | comp_side | (apply HasDerivAt.continuousAt; (repeat' comp_step); all_goals comp_side)
  all_goals try simp only [hD_tc_ratio_fold, hD_tc_ratio_mean_folded, hD_root_chord_wing, hD_tip_chord, hD_fold_chord, hD_nonfolded_taper_ratio, hD_geometric_fuel_vol]
  all_goals try simp (disch := first | assumption | positivity) only [e0, e1, div_mul_eq_div_div, div_half, inv_half]
  all_goals try simp only [mul_zero, zero_mul, add_zero, zero_add, sub_zero, zero_sub, mul_one, one_mul, sub_self]
  all_goals try push_cast
  all_goals comp_eq

theorem d_fuel_wing_volume_geometric_max__wing_taper_ratio (wing_area wing_span wing_taper_ratio
    wing_thickness_to_chord_root wing_thickness_to_chord_tip fuel_wing_fuel_fraction
    wing_folding_area wing_folded_span : ℝ) (h0 : 0 < wing_span) (h1 : 0 < wing_area -
    wing_folding_area) (h2 : 0 < wing_taper_ratio) (h3 : 0 < wing_area) (h4 : wing_area -
    wing_folding_area ≠ 0) (h5 : 0 < wing_folded_span) (h6 : 0 < ((2 * wing_area) / (wing_span *
    (1 + wing_taper_ratio))) + (((wing_folded_span / 2) * ((wing_taper_ratio * ((2 * wing_area) /
    (wing_span * (1 + wing_taper_ratio)))) - ((2 * wing_area) / (wing_span * (1 +
    wing_taper_ratio))))) / (wing_span / 2))) :
    HasDerivAt (fun t => out_fuel_wing_volume_geometric_max wing_area wing_span t wing_thickness_to_chord_root wing_thickness_to_chord_tip fuel_wing_fuel_fraction wing_folding_area wing_folded_span) (J_fuel_wing_volume_geometric_max__wing_taper_ratio wing_area wing_span wing_taper_ratio wing_thickness_to_chord_root wing_thickness_to_chord_tip fuel_wing_fuel_fraction wing_folding_area wing_folded_span) wing_taper_ratio := by
  have e0 : ∀ x : ℝ, 0 < x → x ^ ((-(1 / 2)) : ℝ) = x ^ ((1 / 2) : ℝ) / x ^ 1 := fun x hx => rpow_down hx 1 (by norm_num)
  have e1 : ∀ x : ℝ, 0 < x → x ^ ((3 / 2) : ℝ) = x ^ ((1 / 2) : ℝ) * x ^ 1 := fun x hx => rpow_up hx 1 (by norm_num)
  simp only [out_fuel_wing_volume_geometric_max, J_fuel_wing_volume_geometric_max__wing_taper_ratio, dden_dtaperratio, num, a, dnum_dtaperratio, dnftr_dtaperratio, dfoldchord_dtaperratio, dtipchord_dtaperratio, drootchordwing_dtaperratio, den, geometric_fuel_vol, nonfolded_ar, nonfolded_taper_ratio, fold_chord, tip_chord, root_chord_wing, nonfolded_wing_area, tc_ratio_mean_folded, tc_ratio_fold, location]
  (apply hasDerivAt_of_eq; on_goal 1 => (repeat' comp_step))
  all_goals try comp_side
  all_goals try simp (disch := first | assumption | positivity) only [e0, e1, div_mul_eq_div_div, div_half, inv_half]
  all_goals try simp only [mul_zero, zero_mul, add_zero, zero_add, sub_zero, zero_sub, mul_one, one_mul]
  all_goals try push_cast
  all_goals comp_eq

theorem d_fuel_wing_volume_geometric_max__wing_thickness_to_chord_root (wing_area wing_span
    wing_taper_ratio wing_thickness_to_chord_root wing_thickness_to_chord_tip
    fuel_wing_fuel_fraction wing_folding_area wing_folded_span : ℝ) (h0 : 0 < wing_span) (h1 : 0 <
    wing_area - wing_folding_area) (h2 : 0 < wing_taper_ratio) (h3 : 0 < wing_area) (h4 :
    wing_area - wing_folding_area ≠ 0) (h5 : 0 < wing_folded_span) (h6 : 0 < ((2 * wing_area) /
    (wing_span * (1 + wing_taper_ratio))) + (((wing_folded_span / 2) * ((wing_taper_ratio * ((2 *
    wing_area) / (wing_span * (1 + wing_taper_ratio)))) - ((2 * wing_area) / (wing_span * (1 +
    wing_taper_ratio))))) / (wing_span / 2))) :
    HasDerivAt (fun t => out_fuel_wing_volume_geometric_max wing_area wing_span wing_taper_ratio t wing_thickness_to_chord_tip fuel_wing_fuel_fraction wing_folding_area wing_folded_span) (J_fuel_wing_volume_geometric_max__wing_thickness_to_chord_root wing_area wing_span wing_taper_ratio fuel_wing_fuel_fraction wing_folding_area wing_folded_span) wing_thickness_to_chord_root := by
  have e0 : ∀ x : ℝ, 0 < x → x ^ ((3 / 2) : ℝ) = x ^ ((1 / 2) : ℝ) * x ^ 1 := fun x hx => rpow_up hx 1 (by norm_num)
  simp only [out_fuel_wing_volume_geometric_max, J_fuel_wing_volume_geometric_max__wing_thickness_to_chord_root, dtc_ratio_rootmeanfolded_dtc_ratio_root, dtc_ratio_rootatiofold_dtc_ratio_root, geometric_fuel_vol, nonfolded_ar, nonfolded_taper_ratio, fold_chord, tip_chord, root_chord_wing, nonfolded_wing_area, tc_ratio_mean_folded, tc_ratio_fold, location]
  (apply hasDerivAt_of_eq; on_goal 1 => (repeat' comp_step))
  all_goals try comp_side
  all_goals try simp (disch := first | assumption | positivity) only [e0, div_mul_eq_div_div, div_half, inv_half]
  all_goals try simp only [mul_zero, zero_mul, add_zero, zero_add, sub_zero, zero_sub, mul_one, one_mul]
  all_goals try push_cast
  all_goals comp_eq

theorem d_fuel_wing_volume_geometric_max__wing_thickness_to_chord_tip (wing_area wing_span
    wing_taper_ratio wing_thickness_to_chord_root wing_thickness_to_chord_tip
    fuel_wing_fuel_fraction wing_folding_area wing_folded_span : ℝ) (h0 : 0 < wing_span) (h1 : 0 <
    wing_area - wing_folding_area) (h2 : 0 < wing_taper_ratio) (h3 : 0 < wing_area) (h4 :
    wing_area - wing_folding_area ≠ 0) (h5 : 0 < wing_folded_span) (h6 : 0 < ((2 * wing_area) /
    (wing_span * (1 + wing_taper_ratio))) + (((wing_folded_span / 2) * ((wing_taper_ratio * ((2 *
    wing_area) / (wing_span * (1 + wing_taper_ratio)))) - ((2 * wing_area) / (wing_span * (1 +
    wing_taper_ratio))))) / (wing_span / 2))) :
    HasDerivAt (fun t => out_fuel_wing_volume_geometric_max wing_area wing_span wing_taper_ratio wing_thickness_to_chord_root t fuel_wing_fuel_fraction wing_folding_area wing_folded_span) (J_fuel_wing_volume_geometric_max__wing_thickness_to_chord_tip wing_area wing_span wing_taper_ratio fuel_wing_fuel_fraction wing_folding_area wing_folded_span) wing_thickness_to_chord_tip := by
  have e0 : ∀ x : ℝ, 0 < x → x ^ ((3 / 2) : ℝ) = x ^ ((1 / 2) : ℝ) * x ^ 1 := fun x hx => rpow_up hx 1 (by norm_num)
  simp only [out_fuel_wing_volume_geometric_max, J_fuel_wing_volume_geometric_max__wing_thickness_to_chord_tip, dtc_ratio_rootmeanfolded_dtc_ratio_tip, dtc_ratio_rootatiofold_dtc_ratio_tip, geometric_fuel_vol, nonfolded_ar, nonfolded_taper_ratio, fold_chord, tip_chord, root_chord_wing, nonfolded_wing_area, tc_ratio_mean_folded, tc_ratio_fold, location]
  (apply hasDerivAt_of_eq; on_goal 1 => (repeat' comp_step))
  all_goals try comp_side
  all_goals try simp (disch := first | assumption | positivity) only [e0, div_mul_eq_div_div, div_half, inv_half]
  all_goals try simp only [mul_zero, zero_mul, add_zero, zero_add, sub_zero, zero_sub, mul_one, one_mul]
  all_goals try push_cast
  all_goals comp_eq

theorem d_fuel_wing_volume_geometric_max__fuel_wing_fuel_fraction (wing_area wing_span
    wing_taper_ratio wing_thickness_to_chord_root wing_thickness_to_chord_tip
    fuel_wing_fuel_fraction wing_folding_area wing_folded_span : ℝ) (h0 : 0 < wing_span) (h1 : 0 <
    wing_area - wing_folding_area) (h2 : 0 < wing_taper_ratio) (h3 : 0 < wing_area) (h4 :
    wing_area - wing_folding_area ≠ 0) (h5 : 0 < wing_folded_span) (h6 : 0 < ((2 * wing_area) /
    (wing_span * (1 + wing_taper_ratio))) + (((wing_folded_span / 2) * ((wing_taper_ratio * ((2 *
    wing_area) / (wing_span * (1 + wing_taper_ratio)))) - ((2 * wing_area) / (wing_span * (1 +
    wing_taper_ratio))))) / (wing_span / 2))) :
    HasDerivAt (fun t => out_fuel_wing_volume_geometric_max wing_area wing_span wing_taper_ratio wing_thickness_to_chord_root wing_thickness_to_chord_tip t wing_folding_area wing_folded_span) (J_fuel_wing_volume_geometric_max__fuel_wing_fuel_fraction wing_area wing_span wing_taper_ratio wing_thickness_to_chord_root wing_thickness_to_chord_tip wing_folding_area wing_folded_span) fuel_wing_fuel_fraction := by
  have e0 : ∀ x : ℝ, 0 < x → x ^ ((3 / 2) : ℝ) = x ^ ((1 / 2) : ℝ) * x ^ 1 := fun x hx => rpow_up hx 1 (by norm_num)
  simp only [out_fuel_wing_volume_geometric_max, J_fuel_wing_volume_geometric_max__fuel_wing_fuel_fraction, geometric_fuel_vol, nonfolded_ar, nonfolded_taper_ratio, fold_chord, tip_chord, root_chord_wing, nonfolded_wing_area, tc_ratio_mean_folded, tc_ratio_fold, location]
  (apply hasDerivAt_of_eq; on_goal 1 => (repeat' comp_step))
  all_goals try comp_side
  all_goals try simp (disch := first | assumption | positivity) only [e0, div_mul_eq_div_div, div_half, inv_half]
  all_goals try simp only [mul_zero, zero_mul, add_zero, zero_add, sub_zero, zero_sub, mul_one, one_mul]
  all_goals try push_cast
  all_goals comp_eq

theorem d_fuel_wing_volume_geometric_max__wing_folding_area (wing_area wing_span wing_taper_ratio
    wing_thickness_to_chord_root wing_thickness_to_chord_tip fuel_wing_fuel_fraction
    wing_folding_area wing_folded_span : ℝ) (h0 : 0 < wing_span) (h1 : 0 < wing_area -
    wing_folding_area) (h2 : 0 < wing_taper_ratio) (h3 : 0 < wing_area) (h4 : wing_area -
    wing_folding_area ≠ 0) (h5 : 0 < wing_folded_span) (h6 : 0 < ((2 * wing_area) / (wing_span *
    (1 + wing_taper_ratio))) + (((wing_folded_span / 2) * ((wing_taper_ratio * ((2 * wing_area) /
    (wing_span * (1 + wing_taper_ratio)))) - ((2 * wing_area) / (wing_span * (1 +
    wing_taper_ratio))))) / (wing_span / 2))) :
    HasDerivAt (fun t => out_fuel_wing_volume_geometric_max wing_area wing_span wing_taper_ratio wing_thickness_to_chord_root wing_thickness_to_chord_tip fuel_wing_fuel_fraction t wing_folded_span) (J_fuel_wing_volume_geometric_max__wing_folding_area wing_area wing_span wing_taper_ratio wing_thickness_to_chord_root wing_thickness_to_chord_tip fuel_wing_fuel_fraction wing_folding_area wing_folded_span) wing_folding_area := by
  have hf6 : 0 < (root_chord_wing wing_area wing_span wing_taper_ratio) + (((location wing_folded_span) * ((tip_chord wing_area wing_span wing_taper_ratio) - (root_chord_wing wing_area wing_span wing_taper_ratio))) / (wing_span / 2)) := by simp only [dden_dwingfoldarea, dnfar_dwingfoldarea, num, a, dnum_dwingfoldarea, tc_ratio_mean_folded, tc_ratio_fold, den, nonfolded_taper_ratio, fold_chord, tip_chord, root_chord_wing, nonfolded_ar, nonfolded_wing_area, location, geometric_fuel_vol]; exact h6
  have hp0 : root_chord_wing wing_area wing_span wing_taper_ratio ≠ 0 := by simp only [dden_dwingfoldarea, dnfar_dwingfoldarea, num, a, dnum_dwingfoldarea, tc_ratio_mean_folded, tc_ratio_fold, den, nonfolded_taper_ratio, fold_chord, tip_chord, root_chord_wing, nonfolded_ar, nonfolded_wing_area, location, geometric_fuel_vol]; comp_side
  have hp1 : nonfolded_wing_area wing_area wing_folding_area ≠ 0 := by simp only [dden_dwingfoldarea, dnfar_dwingfoldarea, num, a, dnum_dwingfoldarea, tc_ratio_mean_folded, tc_ratio_fold, den, nonfolded_taper_ratio, fold_chord, tip_chord, root_chord_wing, nonfolded_ar, nonfolded_wing_area, location, geometric_fuel_vol]; comp_side
  have hp2 : 0 < nonfolded_wing_area wing_area wing_folding_area := by simp only [dden_dwingfoldarea, dnfar_dwingfoldarea, num, a, dnum_dwingfoldarea, tc_ratio_mean_folded, tc_ratio_fold, den, nonfolded_taper_ratio, fold_chord, tip_chord, root_chord_wing, nonfolded_ar, nonfolded_wing_area, location, geometric_fuel_vol]; comp_side
  have hp3 : 0 < nonfolded_ar wing_area wing_folding_area wing_folded_span := by simp only [dden_dwingfoldarea, dnfar_dwingfoldarea, num, a, dnum_dwingfoldarea, tc_ratio_mean_folded, tc_ratio_fold, den, nonfolded_taper_ratio, fold_chord, tip_chord, root_chord_wing, nonfolded_ar, nonfolded_wing_area, location, geometric_fuel_vol]; comp_side
  have hp4 : 0 < nonfolded_taper_ratio wing_area wing_span wing_taper_ratio wing_folded_span := by simp only [dden_dwingfoldarea, dnfar_dwingfoldarea, num, a, dnum_dwingfoldarea, tc_ratio_mean_folded, tc_ratio_fold, den, nonfolded_taper_ratio, fold_chord, tip_chord, root_chord_wing, nonfolded_ar, nonfolded_wing_area, location, geometric_fuel_vol]; comp_side
  have hp5 : den wing_area wing_span wing_taper_ratio wing_folding_area wing_folded_span ≠ 0 := by simp only [dden_dwingfoldarea, dnfar_dwingfoldarea, num, a, dnum_dwingfoldarea, tc_ratio_mean_folded, tc_ratio_fold, den, nonfolded_taper_ratio, fold_chord, tip_chord, root_chord_wing, nonfolded_ar, nonfolded_wing_area, location, geometric_fuel_vol]; comp_side
  have e0 : ∀ x : ℝ, 0 < x → x ^ ((-(1 / 2)) : ℝ) = x ^ ((1 / 2) : ℝ) / x ^ 1 := fun x hx => rpow_down hx 1 (by norm_num)
  have e1 : ∀ x : ℝ, 0 < x → x ^ ((3 / 2) : ℝ) = x ^ ((1 / 2) : ℝ) * x ^ 1 := fun x hx => rpow_up hx 1 (by norm_num)
  obtain ⟨D_nonfolded_wing_area, hD_nonfolded_wing_area, k_nonfolded_wing_area⟩ : ∃ D : ℝ, D = -1 ∧
      HasDerivAt (fun t => nonfolded_wing_area wing_area t) D wing_folding_area := by
    refine ⟨_, rfl, ?_⟩
    simp only [nonfolded_wing_area]
    apply hasDerivAt_of_eq; on_goal 1 => (repeat' comp_step)
    all_goals try first | comp_side | (apply HasDerivAt.continuousAt; (repeat' comp_step); all_goals comp_side)
    all_goals try simp (disch := first | assumption | positivity) only [e0, e1, div_mul_eq_div_div, div_half, inv_half]
    all_goals try simp only [mul_zero, zero_mul, add_zero, zero_add, sub_zero, zero_sub, mul_one, one_mul, sub_self]
    all_goals try push_cast
    all_goals comp_eq
  obtain ⟨D_nonfolded_ar, hD_nonfolded_ar, k_nonfolded_ar⟩ : ∃ D : ℝ, D = -(((4 * ((location wing_folded_span) ^ 2)) * D_nonfolded_wing_area) / ((nonfolded_wing_area wing_area wing_folding_area) ^ 2)) ∧
      HasDerivAt (fun t => nonfolded_ar wing_area t wing_folded_span) D wing_folding_area := by
    refine ⟨_, rfl, ?_⟩
    simp only [nonfolded_ar]
    apply hasDerivAt_of_eq; on_goal 1 => (repeat' comp_step)
    all_goals try first | comp_side | (apply HasDerivAt.continuousAt; (repeat' comp_step); all_goals comp_side)
    all_goals try simp (disch := first | assumption | positivity) only [e0, e1, div_mul_eq_div_div, div_half, inv_half]
    all_goals try simp only [mul_zero, zero_mul, add_zero, zero_add, sub_zero, zero_sub, mul_one, one_mul, sub_self]
    all_goals try push_cast
    all_goals comp_eq
  obtain ⟨D_geometric_fuel_vol, hD_geometric_fuel_vol, k_geometric_fuel_vol⟩ : ∃ D : ℝ, D = ((((((fuel_wing_fuel_fraction * (888889 / 1000000)) * (tc_ratio_mean_folded wing_span wing_thickness_to_chord_root wing_thickness_to_chord_tip wing_folded_span)) * (((3 / 2) * ((nonfolded_wing_area wing_area wing_folding_area) ^ ((1 / 2) : ℝ))) * D_nonfolded_wing_area)) * ((2 * (nonfolded_taper_ratio wing_area wing_span wing_taper_ratio wing_folded_span)) + 1)) * (((nonfolded_ar wing_area wing_folding_area wing_folded_span) ^ ((1 / 2) : ℝ)) * (((nonfolded_taper_ratio wing_area wing_span wing_taper_ratio wing_folded_span) + 1) ^ 2))) - (((((fuel_wing_fuel_fraction * (888889 / 1000000)) * (tc_ratio_mean_folded wing_span wing_thickness_to_chord_root wing_thickness_to_chord_tip wing_folded_span)) * ((nonfolded_wing_area wing_area wing_folding_area) ^ ((3 / 2) : ℝ))) * ((2 * (nonfolded_taper_ratio wing_area wing_span wing_taper_ratio wing_folded_span)) + 1)) * ((((1 / 2) * ((nonfolded_ar wing_area wing_folding_area wing_folded_span) ^ ((-(1 / 2)) : ℝ))) * D_nonfolded_ar) * (((nonfolded_taper_ratio wing_area wing_span wing_taper_ratio wing_folded_span) + 1) ^ 2)))) / ((((nonfolded_ar wing_area wing_folding_area wing_folded_span) ^ ((1 / 2) : ℝ)) * (((nonfolded_taper_ratio wing_area wing_span wing_taper_ratio wing_folded_span) + 1) ^ 2)) ^ 2) ∧
      HasDerivAt (fun t => geometric_fuel_vol wing_area wing_span wing_taper_ratio wing_thickness_to_chord_root wing_thickness_to_chord_tip fuel_wing_fuel_fraction t wing_folded_span) D wing_folding_area := by
    refine ⟨_, rfl, ?_⟩
    simp only [geometric_fuel_vol]
    apply hasDerivAt_of_eq; on_goal 1 => (repeat' comp_step)
    all_goals try first | comp_side | (apply HasDerivAt.continuousAt; (repeat' comp_step); all_goals comp_side)
    all_goals try simp (disch := first | assumption | positivity) only [e0, e1, div_mul_eq_div_div, div_half, inv_half]
    all_goals try simp only [mul_zero, zero_mul, add_zero, zero_add, sub_zero, zero_sub, mul_one, one_mul, sub_self]
    all_goals try push_cast
    all_goals comp_eq
  try simp only [out_fuel_wing_volume_geometric_max, J_fuel_wing_volume_geometric_max__wing_folding_area, dden_dwingfoldarea, dnfar_dwingfoldarea, num, a, dnum_dwingfoldarea, den]
  all_goals (apply hasDerivAt_of_eq; on_goal 1 => (repeat' comp_step))
  all_goals try first | comp_side | (apply HasDerivAt.continuousAt; (repeat' comp_step); all_goals comp_side)
  all_goals try simp only [hD_nonfolded_wing_area, hD_nonfolded_ar, hD_geometric_fuel_vol]
  all_goals try simp (disch := first | assumption | positivity) only [e0, e1, div_mul_eq_div_div, div_half, inv_half]
  all_goals try simp only [mul_zero, zero_mul, add_zero, zero_add, sub_zero, zero_sub, mul_one, one_mul, sub_self]
  all_goals try push_cast
  all_goals comp_eq

theorem d_fuel_wing_volume_geometric_max__wing_folded_span (wing_area wing_span wing_taper_ratio
    wing_thickness_to_chord_root wing_thickness_to_chord_tip fuel_wing_fuel_fraction
    wing_folding_area wing_folded_span : ℝ) (h0 : 0 < wing_span) (h1 : 0 < wing_area -
    wing_folding_area) (h2 : 0 < wing_taper_ratio) (h3 : 0 < wing_area) (h4 : wing_area -
    wing_folding_area ≠ 0) (h5 : 0 < wing_folded_span) (h6 : 0 < ((2 * wing_area) / (wing_span *
    (1 + wing_taper_ratio))) + (((wing_folded_span / 2) * ((wing_taper_ratio * ((2 * wing_area) /
    (wing_span * (1 + wing_taper_ratio)))) - ((2 * wing_area) / (wing_span * (1 +
    wing_taper_ratio))))) / (wing_span / 2))) :
    HasDerivAt (fun t => out_fuel_wing_volume_geometric_max wing_area wing_span wing_taper_ratio wing_thickness_to_chord_root wing_thickness_to_chord_tip fuel_wing_fuel_fraction wing_folding_area t) (J_fuel_wing_volume_geometric_max__wing_folded_span wing_area wing_span wing_taper_ratio wing_thickness_to_chord_root wing_thickness_to_chord_tip fuel_wing_fuel_fraction wing_folding_area wing_folded_span) wing_folded_span := by
  have e0 : ∀ x : ℝ, 0 < x → x ^ ((-(1 / 2)) : ℝ) = x ^ ((1 / 2) : ℝ) / x ^ 1 := fun x hx => rpow_down hx 1 (by norm_num)
  have e1 : ∀ x : ℝ, 0 < x → x ^ ((3 / 2) : ℝ) = x ^ ((1 / 2) : ℝ) * x ^ 1 := fun x hx => rpow_up hx 1 (by norm_num)
  simp only [out_fuel_wing_volume_geometric_max, J_fuel_wing_volume_geometric_max__wing_folded_span, dden_dy, dnfar_dy, num, dnum_dy, da_dy, dnftr_dy, dfoldchord_dy, a, dtc_ratio_rootmeanfolded_dy, dtc_ratio_rootatiofold_dy, den, geometric_fuel_vol, nonfolded_ar, nonfolded_taper_ratio, fold_chord, tip_chord, root_chord_wing, nonfolded_wing_area, tc_ratio_mean_folded, tc_ratio_fold, location]
  (apply hasDerivAt_of_eq; on_goal 1 => (repeat' comp_step))
  all_goals try comp_side
  all_goals try simp (disch := first | assumption | positivity) only [e0, e1, div_mul_eq_div_div, div_half, inv_half]
  all_goals try simp only [mul_zero, zero_mul, add_zero, zero_add, sub_zero, zero_sub, mul_one, one_mul]
  all_goals try push_cast
  all_goals comp_eq

/-- Every partial derivative set by `WingFoldVolume` is the derivative of its output. -/
theorem partials (wing_area wing_span wing_taper_ratio wing_thickness_to_chord_root
    wing_thickness_to_chord_tip fuel_wing_fuel_fraction wing_folding_area wing_folded_span : ℝ)
    (h0 : 0 < wing_span) (h1 : 0 < wing_taper_ratio) (h2 : 0 < wing_area) (h3 : wing_area -
    wing_folding_area ≠ 0) (h4 : 0 < wing_area - wing_folding_area) (h5 : 0 < wing_folded_span)
    (h6 : 0 < ((2 * wing_area) / (wing_span * (1 + wing_taper_ratio))) + (((wing_folded_span / 2)
    * ((wing_taper_ratio * ((2 * wing_area) / (wing_span * (1 + wing_taper_ratio)))) - ((2 *
    wing_area) / (wing_span * (1 + wing_taper_ratio))))) / (wing_span / 2))) :
    HasDerivAt (fun t => out_nonfolded_taper_ratio t wing_span wing_taper_ratio wing_folded_span)
      (J_nonfolded_taper_ratio__wing_area wing_area wing_span wing_taper_ratio wing_folded_span)
      wing_area ∧
    HasDerivAt (fun t => out_nonfolded_taper_ratio wing_area t wing_taper_ratio wing_folded_span)
      (J_nonfolded_taper_ratio__wing_span wing_area wing_span wing_taper_ratio wing_folded_span)
      wing_span ∧
    HasDerivAt (fun t => out_nonfolded_taper_ratio wing_area wing_span t wing_folded_span)
      (J_nonfolded_taper_ratio__wing_taper_ratio wing_area wing_span wing_taper_ratio
      wing_folded_span) wing_taper_ratio ∧
    HasDerivAt (fun t => out_nonfolded_taper_ratio wing_area wing_span wing_taper_ratio t)
      (J_nonfolded_taper_ratio__wing_folded_span wing_area wing_span wing_taper_ratio)
      wing_folded_span ∧
    HasDerivAt (fun t => out_nonfolded_wing_area t wing_folding_area)
      (J_nonfolded_wing_area__wing_area) wing_area ∧
    HasDerivAt (fun t => out_nonfolded_wing_area wing_area t)
      (J_nonfolded_wing_area__wing_folding_area) wing_folding_area ∧
    HasDerivAt (fun t => out_tc_ratio_mean_folded t wing_thickness_to_chord_root
      wing_thickness_to_chord_tip wing_folded_span) (J_tc_ratio_mean_folded__wing_span wing_span
      wing_thickness_to_chord_root wing_thickness_to_chord_tip wing_folded_span) wing_span ∧
    HasDerivAt (fun t => out_tc_ratio_mean_folded wing_span t wing_thickness_to_chord_tip
      wing_folded_span) (J_tc_ratio_mean_folded__wing_thickness_to_chord_root wing_span
      wing_folded_span) wing_thickness_to_chord_root ∧
    HasDerivAt (fun t => out_tc_ratio_mean_folded wing_span wing_thickness_to_chord_root t
      wing_folded_span) (J_tc_ratio_mean_folded__wing_thickness_to_chord_tip wing_span
      wing_folded_span) wing_thickness_to_chord_tip ∧
    HasDerivAt (fun t => out_tc_ratio_mean_folded wing_span wing_thickness_to_chord_root
      wing_thickness_to_chord_tip t) (J_tc_ratio_mean_folded__wing_folded_span wing_span
      wing_thickness_to_chord_root wing_thickness_to_chord_tip) wing_folded_span ∧
    HasDerivAt (fun t => out_nonfolded_ar t wing_folding_area wing_folded_span)
      (J_nonfolded_ar__wing_area wing_area wing_folding_area wing_folded_span) wing_area ∧
    HasDerivAt (fun t => out_nonfolded_ar wing_area wing_folding_area wing_folded_span)
      (J_nonfolded_ar__wing_span wing_area wing_folding_area wing_folded_span) wing_span ∧
    HasDerivAt (fun t => out_nonfolded_ar wing_area t wing_folded_span)
      (J_nonfolded_ar__wing_folding_area wing_area wing_folding_area wing_folded_span)
      wing_folding_area ∧
    HasDerivAt (fun t => out_nonfolded_ar wing_area wing_folding_area t)
      (J_nonfolded_ar__wing_folded_span wing_area wing_folding_area wing_folded_span)
      wing_folded_span ∧
    HasDerivAt (fun t => out_fuel_wing_volume_geometric_max t wing_span wing_taper_ratio
      wing_thickness_to_chord_root wing_thickness_to_chord_tip fuel_wing_fuel_fraction
      wing_folding_area wing_folded_span) (J_fuel_wing_volume_geometric_max__wing_area wing_area
      wing_span wing_taper_ratio wing_thickness_to_chord_root wing_thickness_to_chord_tip
      fuel_wing_fuel_fraction wing_folding_area wing_folded_span) wing_area ∧
    HasDerivAt (fun t => out_fuel_wing_volume_geometric_max wing_area t wing_taper_ratio
      wing_thickness_to_chord_root wing_thickness_to_chord_tip fuel_wing_fuel_fraction
      wing_folding_area wing_folded_span) (J_fuel_wing_volume_geometric_max__wing_span wing_area
      wing_span wing_taper_ratio wing_thickness_to_chord_root wing_thickness_to_chord_tip
      fuel_wing_fuel_fraction wing_folding_area wing_folded_span) wing_span ∧
    HasDerivAt (fun t => out_fuel_wing_volume_geometric_max wing_area wing_span t
      wing_thickness_to_chord_root wing_thickness_to_chord_tip fuel_wing_fuel_fraction
      wing_folding_area wing_folded_span) (J_fuel_wing_volume_geometric_max__wing_taper_ratio
      wing_area wing_span wing_taper_ratio wing_thickness_to_chord_root
      wing_thickness_to_chord_tip fuel_wing_fuel_fraction wing_folding_area wing_folded_span)
      wing_taper_ratio ∧
    HasDerivAt (fun t => out_fuel_wing_volume_geometric_max wing_area wing_span wing_taper_ratio t
      wing_thickness_to_chord_tip fuel_wing_fuel_fraction wing_folding_area wing_folded_span)
      (J_fuel_wing_volume_geometric_max__wing_thickness_to_chord_root wing_area wing_span
      wing_taper_ratio fuel_wing_fuel_fraction wing_folding_area wing_folded_span)
      wing_thickness_to_chord_root ∧
    HasDerivAt (fun t => out_fuel_wing_volume_geometric_max wing_area wing_span wing_taper_ratio
      wing_thickness_to_chord_root t fuel_wing_fuel_fraction wing_folding_area wing_folded_span)
      (J_fuel_wing_volume_geometric_max__wing_thickness_to_chord_tip wing_area wing_span
      wing_taper_ratio fuel_wing_fuel_fraction wing_folding_area wing_folded_span)
      wing_thickness_to_chord_tip ∧
    HasDerivAt (fun t => out_fuel_wing_volume_geometric_max wing_area wing_span wing_taper_ratio
      wing_thickness_to_chord_root wing_thickness_to_chord_tip t wing_folding_area
      wing_folded_span) (J_fuel_wing_volume_geometric_max__fuel_wing_fuel_fraction wing_area
      wing_span wing_taper_ratio wing_thickness_to_chord_root wing_thickness_to_chord_tip
      wing_folding_area wing_folded_span) fuel_wing_fuel_fraction ∧
    HasDerivAt (fun t => out_fuel_wing_volume_geometric_max wing_area wing_span wing_taper_ratio
      wing_thickness_to_chord_root wing_thickness_to_chord_tip fuel_wing_fuel_fraction t
      wing_folded_span) (J_fuel_wing_volume_geometric_max__wing_folding_area wing_area wing_span
      wing_taper_ratio wing_thickness_to_chord_root wing_thickness_to_chord_tip
      fuel_wing_fuel_fraction wing_folding_area wing_folded_span) wing_folding_area ∧
    HasDerivAt (fun t => out_fuel_wing_volume_geometric_max wing_area wing_span wing_taper_ratio
      wing_thickness_to_chord_root wing_thickness_to_chord_tip fuel_wing_fuel_fraction
      wing_folding_area t) (J_fuel_wing_volume_geometric_max__wing_folded_span wing_area wing_span
      wing_taper_ratio wing_thickness_to_chord_root wing_thickness_to_chord_tip
      fuel_wing_fuel_fraction wing_folding_area wing_folded_span) wing_folded_span :=
  ⟨d_nonfolded_taper_ratio__wing_area _ _ _ _ h0 h1 h2, d_nonfolded_taper_ratio__wing_span _ _ _ _
    h0 h1 h2, d_nonfolded_taper_ratio__wing_taper_ratio _ _ _ _ h0 h1 h2,
    d_nonfolded_taper_ratio__wing_folded_span _ _ _ _ h0 h1 h2, d_nonfolded_wing_area__wing_area _
    _, d_nonfolded_wing_area__wing_folding_area _ _, d_tc_ratio_mean_folded__wing_span _ _ _ _ h0,
    d_tc_ratio_mean_folded__wing_thickness_to_chord_root _ _ _ _ h0,
    d_tc_ratio_mean_folded__wing_thickness_to_chord_tip _ _ _ _ h0,
    d_tc_ratio_mean_folded__wing_folded_span _ _ _ _ h0, d_nonfolded_ar__wing_area _ _ _ h3,
    d_nonfolded_ar__wing_span _ _ _ _ h3, d_nonfolded_ar__wing_folding_area _ _ _ h3,
    d_nonfolded_ar__wing_folded_span _ _ _ h3, d_fuel_wing_volume_geometric_max__wing_area _ _ _ _
    _ _ _ _ h0 h4 h1 h2 h3 h5 h6, d_fuel_wing_volume_geometric_max__wing_span _ _ _ _ _ _ _ _ h0
    h4 h1 h2 h3 h5 h6, d_fuel_wing_volume_geometric_max__wing_taper_ratio _ _ _ _ _ _ _ _ h0 h4 h1
    h2 h3 h5 h6, d_fuel_wing_volume_geometric_max__wing_thickness_to_chord_root _ _ _ _ _ _ _ _ h0
    h4 h1 h2 h3 h5 h6, d_fuel_wing_volume_geometric_max__wing_thickness_to_chord_tip _ _ _ _ _ _ _
    _ h0 h4 h1 h2 h3 h5 h6, d_fuel_wing_volume_geometric_max__fuel_wing_fuel_fraction _ _ _ _ _ _
    _ _ h0 h4 h1 h2 h3 h5 h6, d_fuel_wing_volume_geometric_max__wing_folding_area _ _ _ _ _ _ _ _
    h0 h4 h1 h2 h3 h5 h6, d_fuel_wing_volume_geometric_max__wing_folded_span _ _ _ _ _ _ _ _ h0 h4
    h1 h2 h3 h5 h6⟩

example : ∃ wing_area wing_span wing_taper_ratio wing_thickness_to_chord_root
      wing_thickness_to_chord_tip fuel_wing_fuel_fraction wing_folding_area wing_folded_span : ℝ,
      0 < wing_span ∧
      0 < wing_taper_ratio ∧
      0 < wing_area ∧
      wing_area - wing_folding_area ≠ 0 ∧
      0 < wing_area - wing_folding_area ∧
      0 < wing_folded_span ∧
      0 < ((2 * wing_area) / (wing_span * (1 + wing_taper_ratio))) + (((wing_folded_span / 2) *
        ((wing_taper_ratio * ((2 * wing_area) / (wing_span * (1 + wing_taper_ratio)))) - ((2 *
        wing_area) / (wing_span * (1 + wing_taper_ratio))))) / (wing_span / 2)) :=
  ⟨1, 1, 1, 0, 0, 0, 0, 1, by comp_example, by comp_example, by comp_example, by comp_example, by
    comp_example, by comp_example, by comp_example⟩

end Verif.Comp.GeometryGaspBasedWing.WingFoldVolume_wingchoosefoldlocation

namespace Verif.Comp.GeometryGaspBasedWing.WingFoldVolume_no_wingchoosefoldlocation
open Real

/-- aviary/subsystems/geometry/gasp_based/wing.py:1120 -/
noncomputable def root_chord_wing (wing_area wing_span wing_taper_ratio : ℝ) : ℝ :=
  (2 * wing_area) / (wing_span * (1 + wing_taper_ratio))

/-- aviary/subsystems/geometry/gasp_based/wing.py:1121 -/
noncomputable def tip_chord (wing_area wing_span wing_taper_ratio : ℝ) : ℝ :=
  wing_taper_ratio * (root_chord_wing wing_area wing_span wing_taper_ratio)

/-- aviary/subsystems/geometry/gasp_based/wing.py:1122 -/
noncomputable def fold_chord (wing_area wing_span wing_taper_ratio strut_y : ℝ) : ℝ :=
  (root_chord_wing wing_area wing_span wing_taper_ratio) + ((strut_y * ((tip_chord wing_area
    wing_span wing_taper_ratio) - (root_chord_wing wing_area wing_span wing_taper_ratio))) /
    (wing_span / 2))

/-- aviary/subsystems/geometry/gasp_based/wing.py:1123 -/
noncomputable def nonfolded_taper_ratio (wing_area wing_span wing_taper_ratio strut_y : ℝ) : ℝ :=
  (fold_chord wing_area wing_span wing_taper_ratio strut_y) / (root_chord_wing wing_area
    wing_span wing_taper_ratio)

/-- aviary/subsystems/geometry/gasp_based/wing.py:1124 -/
noncomputable def nonfolded_wing_area (wing_area wing_folding_area : ℝ) : ℝ :=
  wing_area - wing_folding_area

/-- aviary/subsystems/geometry/gasp_based/wing.py:1126 -/
noncomputable def tc_ratio_fold (wing_span wing_thickness_to_chord_root wing_thickness_to_chord_tip strut_y : ℝ) : ℝ :=
  wing_thickness_to_chord_root + ((strut_y * (wing_thickness_to_chord_tip -
    wing_thickness_to_chord_root)) / (wing_span / 2))

/-- aviary/subsystems/geometry/gasp_based/wing.py:1127 -/
noncomputable def tc_ratio_mean_folded (wing_span wing_thickness_to_chord_root wing_thickness_to_chord_tip strut_y : ℝ) : ℝ :=
  (1 / 2) * (wing_thickness_to_chord_root + (tc_ratio_fold wing_span
    wing_thickness_to_chord_root wing_thickness_to_chord_tip strut_y))

/-- aviary/subsystems/geometry/gasp_based/wing.py:1128 -/
noncomputable def nonfolded_ar (wing_area wing_folding_area strut_y : ℝ) : ℝ :=
  (4 * (strut_y ^ 2)) / (nonfolded_wing_area wing_area wing_folding_area)

/-- aviary/subsystems/geometry/gasp_based/wing.py:1129 -/
noncomputable def geometric_fuel_vol (wing_area wing_span wing_taper_ratio wing_thickness_to_chord_root wing_thickness_to_chord_tip fuel_wing_fuel_fraction wing_folding_area strut_y : ℝ) : ℝ :=
  ((((fuel_wing_fuel_fraction * (888889 / 1000000)) * (tc_ratio_mean_folded wing_span
    wing_thickness_to_chord_root wing_thickness_to_chord_tip strut_y)) * ((nonfolded_wing_area
    wing_area wing_folding_area) ^ ((3 / 2) : ℝ))) * ((2 * (nonfolded_taper_ratio wing_area
    wing_span wing_taper_ratio strut_y)) + 1)) / (((nonfolded_ar wing_area wing_folding_area
    strut_y) ^ ((1 / 2) : ℝ)) * (((nonfolded_taper_ratio wing_area wing_span wing_taper_ratio
    strut_y) + 1) ^ 2))

/-- aviary/subsystems/geometry/gasp_based/wing.py:1168 -/
noncomputable def drootchordwing_dwingarea (wing_span wing_taper_ratio : ℝ) : ℝ :=
  2 / (wing_span * (1 + wing_taper_ratio))

/-- aviary/subsystems/geometry/gasp_based/wing.py:1169 -/
noncomputable def drootchordwing_dwingspan (wing_area wing_span wing_taper_ratio : ℝ) : ℝ :=
  ((-2) * wing_area) / ((wing_span ^ 2) * (1 + wing_taper_ratio))

/-- aviary/subsystems/geometry/gasp_based/wing.py:1170 -/
noncomputable def drootchordwing_dtaperratio (wing_area wing_span wing_taper_ratio : ℝ) : ℝ :=
  ((-2) * wing_area) / (wing_span * ((1 + wing_taper_ratio) ^ 2))

/-- aviary/subsystems/geometry/gasp_based/wing.py:1173 -/
noncomputable def dtipchord_dtaperratio (wing_area wing_span wing_taper_ratio : ℝ) : ℝ :=
  (wing_taper_ratio * (drootchordwing_dtaperratio wing_area wing_span wing_taper_ratio)) +
    (root_chord_wing wing_area wing_span wing_taper_ratio)

/-- aviary/subsystems/geometry/gasp_based/wing.py:1174 -/
noncomputable def dtipchord_dwingarea (wing_span wing_taper_ratio : ℝ) : ℝ :=
  wing_taper_ratio * (drootchordwing_dwingarea wing_span wing_taper_ratio)

/-- aviary/subsystems/geometry/gasp_based/wing.py:1175 -/
noncomputable def dtipchord_dwingspan (wing_area wing_span wing_taper_ratio : ℝ) : ℝ :=
  wing_taper_ratio * (drootchordwing_dwingspan wing_area wing_span wing_taper_ratio)

/-- aviary/subsystems/geometry/gasp_based/wing.py:1178 -/
noncomputable def dfoldchord_dwingarea (wing_span wing_taper_ratio strut_y : ℝ) : ℝ :=
  (drootchordwing_dwingarea wing_span wing_taper_ratio) + ((strut_y * ((dtipchord_dwingarea
    wing_span wing_taper_ratio) - (drootchordwing_dwingarea wing_span wing_taper_ratio))) /
    (wing_span / 2))

/-- aviary/subsystems/geometry/gasp_based/wing.py:1181 -/
noncomputable def dfoldchord_dwingspan (wing_area wing_span wing_taper_ratio strut_y : ℝ) : ℝ :=
  ((drootchordwing_dwingspan wing_area wing_span wing_taper_ratio) + ((strut_y * (((wing_span /
    2) * ((dtipchord_dwingspan wing_area wing_span wing_taper_ratio) - (drootchordwing_dwingspan
    wing_area wing_span wing_taper_ratio))) - (((tip_chord wing_area wing_span wing_taper_ratio)
    - (root_chord_wing wing_area wing_span wing_taper_ratio)) * (1 / 2)))) / ((wing_span / 2) ^
    2))) + ((0 * ((tip_chord wing_area wing_span wing_taper_ratio) - (root_chord_wing wing_area
    wing_span wing_taper_ratio))) / (wing_span / 2))

/-- aviary/subsystems/geometry/gasp_based/wing.py:1191 -/
noncomputable def dfoldchord_dtaperratio (wing_area wing_span wing_taper_ratio strut_y : ℝ) : ℝ :=
  (drootchordwing_dtaperratio wing_area wing_span wing_taper_ratio) + ((strut_y *
    ((dtipchord_dtaperratio wing_area wing_span wing_taper_ratio) - (drootchordwing_dtaperratio
    wing_area wing_span wing_taper_ratio))) / (wing_span / 2))

/-- aviary/subsystems/geometry/gasp_based/wing.py:1194 -/
noncomputable def dfoldchord_dy (wing_area wing_span wing_taper_ratio : ℝ) : ℝ :=
  ((tip_chord wing_area wing_span wing_taper_ratio) - (root_chord_wing wing_area wing_span
    wing_taper_ratio)) / (wing_span / 2)

/-- aviary/subsystems/geometry/gasp_based/wing.py:1197 -/
noncomputable def dnftr_dwingarea (wing_area wing_span wing_taper_ratio strut_y : ℝ) : ℝ :=
  (((root_chord_wing wing_area wing_span wing_taper_ratio) * (dfoldchord_dwingarea wing_span
    wing_taper_ratio strut_y)) - ((fold_chord wing_area wing_span wing_taper_ratio strut_y) *
    (drootchordwing_dwingarea wing_span wing_taper_ratio))) / ((root_chord_wing wing_area
    wing_span wing_taper_ratio) ^ 2)

/-- aviary/subsystems/geometry/gasp_based/wing.py:1200 -/
noncomputable def dnftr_dwingspan (wing_area wing_span wing_taper_ratio strut_y : ℝ) : ℝ :=
  (((root_chord_wing wing_area wing_span wing_taper_ratio) * (dfoldchord_dwingspan wing_area
    wing_span wing_taper_ratio strut_y)) - ((fold_chord wing_area wing_span wing_taper_ratio
    strut_y) * (drootchordwing_dwingspan wing_area wing_span wing_taper_ratio))) /
    ((root_chord_wing wing_area wing_span wing_taper_ratio) ^ 2)

/-- aviary/subsystems/geometry/gasp_based/wing.py:1203 -/
noncomputable def dnftr_dtaperratio (wing_area wing_span wing_taper_ratio strut_y : ℝ) : ℝ :=
  (((root_chord_wing wing_area wing_span wing_taper_ratio) * (dfoldchord_dtaperratio wing_area
    wing_span wing_taper_ratio strut_y)) - ((fold_chord wing_area wing_span wing_taper_ratio
    strut_y) * (drootchordwing_dtaperratio wing_area wing_span wing_taper_ratio))) /
    ((root_chord_wing wing_area wing_span wing_taper_ratio) ^ 2)

/-- aviary/subsystems/geometry/gasp_based/wing.py:1206 -/
noncomputable def dnftr_dy (wing_area wing_span wing_taper_ratio : ℝ) : ℝ :=
  (dfoldchord_dy wing_area wing_span wing_taper_ratio) / (root_chord_wing wing_area wing_span
    wing_taper_ratio)

/-- aviary/subsystems/geometry/gasp_based/wing.py:1220 -/
noncomputable def dtc_ratio_rootatiofold_dtc_ratio_root (wing_span strut_y : ℝ) : ℝ :=
  1 + ((strut_y * (-1)) / (wing_span / 2))

/-- aviary/subsystems/geometry/gasp_based/wing.py:1221 -/
noncomputable def dtc_ratio_rootatiofold_dtc_ratio_tip (wing_span strut_y : ℝ) : ℝ :=
  strut_y / (wing_span / 2)

/-- aviary/subsystems/geometry/gasp_based/wing.py:1222 -/
noncomputable def dtc_ratio_rootatiofold_dwingspan (wing_span wing_thickness_to_chord_root wing_thickness_to_chord_tip strut_y : ℝ) : ℝ :=
  ((wing_thickness_to_chord_tip - wing_thickness_to_chord_root) * (((wing_span / 2) * 0) -
    (strut_y * (1 / 2)))) / ((wing_span / 2) ^ 2)

/-- aviary/subsystems/geometry/gasp_based/wing.py:1227 -/
noncomputable def dtc_ratio_rootatiofold_dy (wing_span wing_thickness_to_chord_root wing_thickness_to_chord_tip : ℝ) : ℝ :=
  (wing_thickness_to_chord_tip - wing_thickness_to_chord_root) / (wing_span / 2)

/-- aviary/subsystems/geometry/gasp_based/wing.py:1230 -/
noncomputable def dtc_ratio_rootmeanfolded_dtc_ratio_root (wing_span strut_y : ℝ) : ℝ :=
  (1 / 2) * (1 + (dtc_ratio_rootatiofold_dtc_ratio_root wing_span strut_y))

/-- aviary/subsystems/geometry/gasp_based/wing.py:1231 -/
noncomputable def dtc_ratio_rootmeanfolded_dtc_ratio_tip (wing_span strut_y : ℝ) : ℝ :=
  (1 / 2) * (dtc_ratio_rootatiofold_dtc_ratio_tip wing_span strut_y)

/-- aviary/subsystems/geometry/gasp_based/wing.py:1232 -/
noncomputable def dtc_ratio_rootmeanfolded_dwingspan (wing_span wing_thickness_to_chord_root wing_thickness_to_chord_tip strut_y : ℝ) : ℝ :=
  (1 / 2) * (dtc_ratio_rootatiofold_dwingspan wing_span wing_thickness_to_chord_root
    wing_thickness_to_chord_tip strut_y)

/-- aviary/subsystems/geometry/gasp_based/wing.py:1233 -/
noncomputable def dtc_ratio_rootmeanfolded_dy (wing_span wing_thickness_to_chord_root wing_thickness_to_chord_tip : ℝ) : ℝ :=
  (1 / 2) * (dtc_ratio_rootatiofold_dy wing_span wing_thickness_to_chord_root
    wing_thickness_to_chord_tip)

/-- aviary/subsystems/geometry/gasp_based/wing.py:1245 -/
noncomputable def dnfar_dwingarea (wing_area wing_folding_area strut_y : ℝ) : ℝ :=
  ((-4) * (strut_y ^ 2)) / ((nonfolded_wing_area wing_area wing_folding_area) ^ 2)

/-- aviary/subsystems/geometry/gasp_based/wing.py:1246 -/
noncomputable def dnfar_dwingfoldarea (wing_area wing_folding_area strut_y : ℝ) : ℝ :=
  (4 * (strut_y ^ 2)) / ((nonfolded_wing_area wing_area wing_folding_area) ^ 2)

/-- aviary/subsystems/geometry/gasp_based/wing.py:1247 -/
noncomputable def dnfar_dwingspan (wing_area wing_folding_area strut_y : ℝ) : ℝ :=
  (4 * ((2 * strut_y) * 0)) / (nonfolded_wing_area wing_area wing_folding_area)

/-- aviary/subsystems/geometry/gasp_based/wing.py:1249 -/
noncomputable def dnfar_dy (wing_area wing_folding_area strut_y : ℝ) : ℝ :=
  (4 * (2 * strut_y)) / (nonfolded_wing_area wing_area wing_folding_area)

/-- aviary/subsystems/geometry/gasp_based/wing.py:1256 -/
noncomputable def a (wing_area wing_span wing_taper_ratio wing_folding_area strut_y : ℝ) : ℝ :=
  ((nonfolded_wing_area wing_area wing_folding_area) ^ ((3 / 2) : ℝ)) * ((2 *
    (nonfolded_taper_ratio wing_area wing_span wing_taper_ratio strut_y)) + 1)

/-- aviary/subsystems/geometry/gasp_based/wing.py:1257 -/
noncomputable def da_dwingspan (wing_area wing_span wing_taper_ratio wing_folding_area strut_y : ℝ) : ℝ :=
  (((nonfolded_wing_area wing_area wing_folding_area) ^ ((3 / 2) : ℝ)) * 2) * (dnftr_dwingspan
    wing_area wing_span wing_taper_ratio strut_y)

/-- aviary/subsystems/geometry/gasp_based/wing.py:1258 -/
noncomputable def da_dy (wing_area wing_span wing_taper_ratio wing_folding_area : ℝ) : ℝ :=
  (((nonfolded_wing_area wing_area wing_folding_area) ^ ((3 / 2) : ℝ)) * 2) * (dnftr_dy
    wing_area wing_span wing_taper_ratio)

/-- aviary/subsystems/geometry/gasp_based/wing.py:1260 -/
noncomputable def num (wing_area wing_span wing_taper_ratio wing_thickness_to_chord_root wing_thickness_to_chord_tip fuel_wing_fuel_fraction wing_folding_area strut_y : ℝ) : ℝ :=
  ((fuel_wing_fuel_fraction * (888889 / 1000000)) * (tc_ratio_mean_folded wing_span
    wing_thickness_to_chord_root wing_thickness_to_chord_tip strut_y)) * (a wing_area wing_span
    wing_taper_ratio wing_folding_area strut_y)

/-- aviary/subsystems/geometry/gasp_based/wing.py:1261 -/
noncomputable def dnum_dwingspan (wing_area wing_span wing_taper_ratio wing_thickness_to_chord_root wing_thickness_to_chord_tip fuel_wing_fuel_fraction wing_folding_area strut_y : ℝ) : ℝ :=
  (((fuel_wing_fuel_fraction * (888889 / 1000000)) * (dtc_ratio_rootmeanfolded_dwingspan
    wing_span wing_thickness_to_chord_root wing_thickness_to_chord_tip strut_y)) * (a wing_area
    wing_span wing_taper_ratio wing_folding_area strut_y)) + (((fuel_wing_fuel_fraction *
    (888889 / 1000000)) * (tc_ratio_mean_folded wing_span wing_thickness_to_chord_root
    wing_thickness_to_chord_tip strut_y)) * (da_dwingspan wing_area wing_span wing_taper_ratio
    wing_folding_area strut_y))

/-- aviary/subsystems/geometry/gasp_based/wing.py:1265 -/
noncomputable def dnum_dy (wing_area wing_span wing_taper_ratio wing_thickness_to_chord_root wing_thickness_to_chord_tip fuel_wing_fuel_fraction wing_folding_area strut_y : ℝ) : ℝ :=
  (((fuel_wing_fuel_fraction * (888889 / 1000000)) * (dtc_ratio_rootmeanfolded_dy wing_span
    wing_thickness_to_chord_root wing_thickness_to_chord_tip)) * (a wing_area wing_span
    wing_taper_ratio wing_folding_area strut_y)) + (((fuel_wing_fuel_fraction * (888889 /
    1000000)) * (tc_ratio_mean_folded wing_span wing_thickness_to_chord_root
    wing_thickness_to_chord_tip strut_y)) * (da_dy wing_area wing_span wing_taper_ratio
    wing_folding_area))

/-- aviary/subsystems/geometry/gasp_based/wing.py:1269 -/
noncomputable def dnum_dwingarea (wing_area wing_span wing_taper_ratio wing_thickness_to_chord_root wing_thickness_to_chord_tip fuel_wing_fuel_fraction wing_folding_area strut_y : ℝ) : ℝ :=
  (((((fuel_wing_fuel_fraction * (888889 / 1000000)) * (tc_ratio_mean_folded wing_span
    wing_thickness_to_chord_root wing_thickness_to_chord_tip strut_y)) * (3 / 2)) *
    ((nonfolded_wing_area wing_area wing_folding_area) ^ ((1 / 2) : ℝ))) * ((2 *
    (nonfolded_taper_ratio wing_area wing_span wing_taper_ratio strut_y)) + 1)) +
    (((((fuel_wing_fuel_fraction * (888889 / 1000000)) * (tc_ratio_mean_folded wing_span
    wing_thickness_to_chord_root wing_thickness_to_chord_tip strut_y)) * ((nonfolded_wing_area
    wing_area wing_folding_area) ^ ((3 / 2) : ℝ))) * 2) * (dnftr_dwingarea wing_area wing_span
    wing_taper_ratio strut_y))

/-- aviary/subsystems/geometry/gasp_based/wing.py:1280 -/
noncomputable def dnum_dwingfoldarea (wing_area wing_span wing_taper_ratio wing_thickness_to_chord_root wing_thickness_to_chord_tip fuel_wing_fuel_fraction wing_folding_area strut_y : ℝ) : ℝ :=
  (((((fuel_wing_fuel_fraction * (888889 / 1000000)) * (tc_ratio_mean_folded wing_span
    wing_thickness_to_chord_root wing_thickness_to_chord_tip strut_y)) * (3 / 2)) *
    ((nonfolded_wing_area wing_area wing_folding_area) ^ ((1 / 2) : ℝ))) * (-1)) * ((2 *
    (nonfolded_taper_ratio wing_area wing_span wing_taper_ratio strut_y)) + 1)

/-- aviary/subsystems/geometry/gasp_based/wing.py:1290 -/
noncomputable def dnum_dtaperratio (wing_area wing_span wing_taper_ratio wing_thickness_to_chord_root wing_thickness_to_chord_tip fuel_wing_fuel_fraction wing_folding_area strut_y : ℝ) : ℝ :=
  ((((fuel_wing_fuel_fraction * (888889 / 1000000)) * (tc_ratio_mean_folded wing_span
    wing_thickness_to_chord_root wing_thickness_to_chord_tip strut_y)) * ((nonfolded_wing_area
    wing_area wing_folding_area) ^ ((3 / 2) : ℝ))) * 2) * (dnftr_dtaperratio wing_area wing_span
    wing_taper_ratio strut_y)

/-- aviary/subsystems/geometry/gasp_based/wing.py:1294 -/
noncomputable def den (wing_area wing_span wing_taper_ratio wing_folding_area strut_y : ℝ) : ℝ :=
  ((nonfolded_ar wing_area wing_folding_area strut_y) ^ ((1 / 2) : ℝ)) *
    (((nonfolded_taper_ratio wing_area wing_span wing_taper_ratio strut_y) + 1) ^ 2)

/-- aviary/subsystems/geometry/gasp_based/wing.py:1296 -/
noncomputable def dden_dwingspan (wing_area wing_span wing_taper_ratio wing_folding_area strut_y : ℝ) : ℝ :=
  ((((1 / 2) * ((nonfolded_ar wing_area wing_folding_area strut_y) ^ ((-(1 / 2)) : ℝ))) *
    (dnfar_dwingspan wing_area wing_folding_area strut_y)) * (((nonfolded_taper_ratio wing_area
    wing_span wing_taper_ratio strut_y) + 1) ^ 2)) + (((((nonfolded_ar wing_area
    wing_folding_area strut_y) ^ ((1 / 2) : ℝ)) * 2) * ((nonfolded_taper_ratio wing_area
    wing_span wing_taper_ratio strut_y) + 1)) * (dnftr_dwingspan wing_area wing_span
    wing_taper_ratio strut_y))

/-- aviary/subsystems/geometry/gasp_based/wing.py:1303 -/
noncomputable def dden_dy (wing_area wing_span wing_taper_ratio wing_folding_area strut_y : ℝ) : ℝ :=
  ((((1 / 2) * ((nonfolded_ar wing_area wing_folding_area strut_y) ^ ((-(1 / 2)) : ℝ))) *
    (dnfar_dy wing_area wing_folding_area strut_y)) * (((nonfolded_taper_ratio wing_area
    wing_span wing_taper_ratio strut_y) + 1) ^ 2)) + (((((nonfolded_ar wing_area
    wing_folding_area strut_y) ^ ((1 / 2) : ℝ)) * 2) * ((nonfolded_taper_ratio wing_area
    wing_span wing_taper_ratio strut_y) + 1)) * (dnftr_dy wing_area wing_span wing_taper_ratio))

/-- aviary/subsystems/geometry/gasp_based/wing.py:1307 -/
noncomputable def dden_dwingarea (wing_area wing_span wing_taper_ratio wing_folding_area strut_y : ℝ) : ℝ :=
  ((((1 / 2) * ((nonfolded_ar wing_area wing_folding_area strut_y) ^ ((-(1 / 2)) : ℝ))) *
    (dnfar_dwingarea wing_area wing_folding_area strut_y)) * (((nonfolded_taper_ratio wing_area
    wing_span wing_taper_ratio strut_y) + 1) ^ 2)) + (((((nonfolded_ar wing_area
    wing_folding_area strut_y) ^ ((1 / 2) : ℝ)) * 2) * ((nonfolded_taper_ratio wing_area
    wing_span wing_taper_ratio strut_y) + 1)) * (dnftr_dwingarea wing_area wing_span
    wing_taper_ratio strut_y))

/-- aviary/subsystems/geometry/gasp_based/wing.py:1314 -/
noncomputable def dden_dwingfoldarea (wing_area wing_span wing_taper_ratio wing_folding_area strut_y : ℝ) : ℝ :=
  (((1 / 2) * ((nonfolded_ar wing_area wing_folding_area strut_y) ^ ((-(1 / 2)) : ℝ))) *
    (dnfar_dwingfoldarea wing_area wing_folding_area strut_y)) * (((nonfolded_taper_ratio
    wing_area wing_span wing_taper_ratio strut_y) + 1) ^ 2)

/-- aviary/subsystems/geometry/gasp_based/wing.py:1320 -/
noncomputable def dden_dtaperratio (wing_area wing_span wing_taper_ratio wing_folding_area strut_y : ℝ) : ℝ :=
  ((((1 / 2) * ((nonfolded_ar wing_area wing_folding_area strut_y) ^ ((-(1 / 2)) : ℝ))) * 0) *
    (((nonfolded_taper_ratio wing_area wing_span wing_taper_ratio strut_y) + 1) ^ 2)) +
    (((((nonfolded_ar wing_area wing_folding_area strut_y) ^ ((1 / 2) : ℝ)) * 2) *
    ((nonfolded_taper_ratio wing_area wing_span wing_taper_ratio strut_y) + 1)) *
    (dnftr_dtaperratio wing_area wing_span wing_taper_ratio strut_y))

/-- Output `nonfolded_taper_ratio` of `WingFoldVolume.compute`, aviary/subsystems/geometry/gasp_based/wing.py:1137 -/
noncomputable def out_nonfolded_taper_ratio (wing_area wing_span wing_taper_ratio strut_y : ℝ) : ℝ :=
  nonfolded_taper_ratio wing_area wing_span wing_taper_ratio strut_y

/-- Output `nonfolded_wing_area` of `WingFoldVolume.compute`, aviary/subsystems/geometry/gasp_based/wing.py:1138 -/
noncomputable def out_nonfolded_wing_area (wing_area wing_folding_area : ℝ) : ℝ :=
  nonfolded_wing_area wing_area wing_folding_area

/-- Output `tc_ratio_mean_folded` of `WingFoldVolume.compute`, aviary/subsystems/geometry/gasp_based/wing.py:1139 -/
noncomputable def out_tc_ratio_mean_folded (wing_span wing_thickness_to_chord_root wing_thickness_to_chord_tip strut_y : ℝ) : ℝ :=
  tc_ratio_mean_folded wing_span wing_thickness_to_chord_root wing_thickness_to_chord_tip
    strut_y

/-- Output `nonfolded_ar` of `WingFoldVolume.compute`, aviary/subsystems/geometry/gasp_based/wing.py:1140 -/
noncomputable def out_nonfolded_ar (wing_area wing_folding_area strut_y : ℝ) : ℝ :=
  nonfolded_ar wing_area wing_folding_area strut_y

/-- Output `fuel_wing_volume_geometric_max` of `WingFoldVolume.compute`, aviary/subsystems/geometry/gasp_based/wing.py:1141 -/
noncomputable def out_fuel_wing_volume_geometric_max (wing_area wing_span wing_taper_ratio wing_thickness_to_chord_root wing_thickness_to_chord_tip fuel_wing_fuel_fraction wing_folding_area strut_y : ℝ) : ℝ :=
  geometric_fuel_vol wing_area wing_span wing_taper_ratio wing_thickness_to_chord_root
    wing_thickness_to_chord_tip fuel_wing_fuel_fraction wing_folding_area strut_y

/-- Partial of `nonfolded_taper_ratio` with respect to `wing_area` as set by `WingFoldVolume`, aviary/subsystems/geometry/gasp_based/wing.py:1208 -/
noncomputable def J_nonfolded_taper_ratio__wing_area (wing_area wing_span wing_taper_ratio strut_y : ℝ) : ℝ :=
  dnftr_dwingarea wing_area wing_span wing_taper_ratio strut_y

/-- Partial of `nonfolded_taper_ratio` with respect to `wing_span` as set by `WingFoldVolume`, aviary/subsystems/geometry/gasp_based/wing.py:1209 -/
noncomputable def J_nonfolded_taper_ratio__wing_span (wing_area wing_span wing_taper_ratio strut_y : ℝ) : ℝ :=
  dnftr_dwingspan wing_area wing_span wing_taper_ratio strut_y

/-- Partial of `nonfolded_taper_ratio` with respect to `wing_taper_ratio` as set by `WingFoldVolume`, aviary/subsystems/geometry/gasp_based/wing.py:1210 -/
noncomputable def J_nonfolded_taper_ratio__wing_taper_ratio (wing_area wing_span wing_taper_ratio strut_y : ℝ) : ℝ :=
  dnftr_dtaperratio wing_area wing_span wing_taper_ratio strut_y

/-- Partial of `nonfolded_taper_ratio` with respect to `strut_y` as set by `WingFoldVolume`, aviary/subsystems/geometry/gasp_based/wing.py:1211 -/
noncomputable def J_nonfolded_taper_ratio__strut_y (wing_area wing_span wing_taper_ratio : ℝ) : ℝ :=
  dnftr_dy wing_area wing_span wing_taper_ratio

/-- Partial of `nonfolded_wing_area` with respect to `wing_area` as set by `WingFoldVolume`, aviary/subsystems/geometry/gasp_based/wing.py:1216 -/
noncomputable def J_nonfolded_wing_area__wing_area : ℝ := 1

/-- Partial of `nonfolded_wing_area` with respect to `wing_folding_area` as set by `WingFoldVolume`, aviary/subsystems/geometry/gasp_based/wing.py:1217 -/
noncomputable def J_nonfolded_wing_area__wing_folding_area : ℝ := -1

/-- Partial of `tc_ratio_mean_folded` with respect to `wing_thickness_to_chord_root` as set by `WingFoldVolume`, aviary/subsystems/geometry/gasp_based/wing.py:1235 -/
noncomputable def J_tc_ratio_mean_folded__wing_thickness_to_chord_root (wing_span strut_y : ℝ) : ℝ :=
  dtc_ratio_rootmeanfolded_dtc_ratio_root wing_span strut_y

/-- Partial of `tc_ratio_mean_folded` with respect to `wing_thickness_to_chord_tip` as set by `WingFoldVolume`, aviary/subsystems/geometry/gasp_based/wing.py:1238 -/
noncomputable def J_tc_ratio_mean_folded__wing_thickness_to_chord_tip (wing_span strut_y : ℝ) : ℝ :=
  dtc_ratio_rootmeanfolded_dtc_ratio_tip wing_span strut_y

/-- Partial of `tc_ratio_mean_folded` with respect to `wing_span` as set by `WingFoldVolume`, aviary/subsystems/geometry/gasp_based/wing.py:1241 -/
noncomputable def J_tc_ratio_mean_folded__wing_span (wing_span wing_thickness_to_chord_root wing_thickness_to_chord_tip strut_y : ℝ) : ℝ :=
  dtc_ratio_rootmeanfolded_dwingspan wing_span wing_thickness_to_chord_root
    wing_thickness_to_chord_tip strut_y

/-- Partial of `tc_ratio_mean_folded` with respect to `strut_y` as set by `WingFoldVolume`, aviary/subsystems/geometry/gasp_based/wing.py:1242 -/
noncomputable def J_tc_ratio_mean_folded__strut_y (wing_span wing_thickness_to_chord_root wing_thickness_to_chord_tip : ℝ) : ℝ :=
  dtc_ratio_rootmeanfolded_dy wing_span wing_thickness_to_chord_root wing_thickness_to_chord_tip

/-- Partial of `nonfolded_ar` with respect to `wing_area` as set by `WingFoldVolume`, aviary/subsystems/geometry/gasp_based/wing.py:1251 -/
noncomputable def J_nonfolded_ar__wing_area (wing_area wing_folding_area strut_y : ℝ) : ℝ :=
  dnfar_dwingarea wing_area wing_folding_area strut_y

/-- Partial of `nonfolded_ar` with respect to `wing_folding_area` as set by `WingFoldVolume`, aviary/subsystems/geometry/gasp_based/wing.py:1252 -/
noncomputable def J_nonfolded_ar__wing_folding_area (wing_area wing_folding_area strut_y : ℝ) : ℝ :=
  dnfar_dwingfoldarea wing_area wing_folding_area strut_y

/-- Partial of `nonfolded_ar` with respect to `wing_span` as set by `WingFoldVolume`, aviary/subsystems/geometry/gasp_based/wing.py:1253 -/
noncomputable def J_nonfolded_ar__wing_span (wing_area wing_folding_area strut_y : ℝ) : ℝ :=
  dnfar_dwingspan wing_area wing_folding_area strut_y

/-- Partial of `nonfolded_ar` with respect to `strut_y` as set by `WingFoldVolume`, aviary/subsystems/geometry/gasp_based/wing.py:1254 -/
noncomputable def J_nonfolded_ar__strut_y (wing_area wing_folding_area strut_y : ℝ) : ℝ :=
  dnfar_dy wing_area wing_folding_area strut_y

/-- Partial of `fuel_wing_volume_geometric_max` with respect to `fuel_wing_fuel_fraction` as set by `WingFoldVolume`, aviary/subsystems/geometry/gasp_based/wing.py:1328 -/
noncomputable def J_fuel_wing_volume_geometric_max__fuel_wing_fuel_fraction (wing_area wing_span wing_taper_ratio wing_thickness_to_chord_root wing_thickness_to_chord_tip wing_folding_area strut_y : ℝ) : ℝ :=
  ((((888889 / 1000000) * (tc_ratio_mean_folded wing_span wing_thickness_to_chord_root
    wing_thickness_to_chord_tip strut_y)) * ((nonfolded_wing_area wing_area wing_folding_area) ^
    ((3 / 2) : ℝ))) * ((2 * (nonfolded_taper_ratio wing_area wing_span wing_taper_ratio
    strut_y)) + 1)) / (((nonfolded_ar wing_area wing_folding_area strut_y) ^ ((1 / 2) : ℝ)) *
    (((nonfolded_taper_ratio wing_area wing_span wing_taper_ratio strut_y) + 1) ^ 2))

/-- Partial of `fuel_wing_volume_geometric_max` with respect to `wing_thickness_to_chord_root` as set by `WingFoldVolume`, aviary/subsystems/geometry/gasp_based/wing.py:1334 -/
noncomputable def J_fuel_wing_volume_geometric_max__wing_thickness_to_chord_root (wing_area wing_span wing_taper_ratio fuel_wing_fuel_fraction wing_folding_area strut_y : ℝ) : ℝ :=
  ((((fuel_wing_fuel_fraction * (888889 / 1000000)) * (dtc_ratio_rootmeanfolded_dtc_ratio_root
    wing_span strut_y)) * ((nonfolded_wing_area wing_area wing_folding_area) ^ ((3 / 2) : ℝ))) *
    ((2 * (nonfolded_taper_ratio wing_area wing_span wing_taper_ratio strut_y)) + 1)) /
    (((nonfolded_ar wing_area wing_folding_area strut_y) ^ ((1 / 2) : ℝ)) *
    (((nonfolded_taper_ratio wing_area wing_span wing_taper_ratio strut_y) + 1) ^ 2))

/-- Partial of `fuel_wing_volume_geometric_max` with respect to `wing_thickness_to_chord_tip` as set by `WingFoldVolume`, aviary/subsystems/geometry/gasp_based/wing.py:1341 -/
noncomputable def J_fuel_wing_volume_geometric_max__wing_thickness_to_chord_tip (wing_area wing_span wing_taper_ratio fuel_wing_fuel_fraction wing_folding_area strut_y : ℝ) : ℝ :=
  ((((fuel_wing_fuel_fraction * (888889 / 1000000)) * (dtc_ratio_rootmeanfolded_dtc_ratio_tip
    wing_span strut_y)) * ((nonfolded_wing_area wing_area wing_folding_area) ^ ((3 / 2) : ℝ))) *
    ((2 * (nonfolded_taper_ratio wing_area wing_span wing_taper_ratio strut_y)) + 1)) /
    (((nonfolded_ar wing_area wing_folding_area strut_y) ^ ((1 / 2) : ℝ)) *
    (((nonfolded_taper_ratio wing_area wing_span wing_taper_ratio strut_y) + 1) ^ 2))

/-- Partial of `fuel_wing_volume_geometric_max` with respect to `wing_span` as set by `WingFoldVolume`, aviary/subsystems/geometry/gasp_based/wing.py:1348 -/
noncomputable def J_fuel_wing_volume_geometric_max__wing_span (wing_area wing_span wing_taper_ratio wing_thickness_to_chord_root wing_thickness_to_chord_tip fuel_wing_fuel_fraction wing_folding_area strut_y : ℝ) : ℝ :=
  (((den wing_area wing_span wing_taper_ratio wing_folding_area strut_y) * (dnum_dwingspan
    wing_area wing_span wing_taper_ratio wing_thickness_to_chord_root
    wing_thickness_to_chord_tip fuel_wing_fuel_fraction wing_folding_area strut_y)) - ((num
    wing_area wing_span wing_taper_ratio wing_thickness_to_chord_root
    wing_thickness_to_chord_tip fuel_wing_fuel_fraction wing_folding_area strut_y) *
    (dden_dwingspan wing_area wing_span wing_taper_ratio wing_folding_area strut_y))) / ((den
    wing_area wing_span wing_taper_ratio wing_folding_area strut_y) ^ 2)

/-- Partial of `fuel_wing_volume_geometric_max` with respect to `wing_area` as set by `WingFoldVolume`, aviary/subsystems/geometry/gasp_based/wing.py:1351 -/
noncomputable def J_fuel_wing_volume_geometric_max__wing_area (wing_area wing_span wing_taper_ratio wing_thickness_to_chord_root wing_thickness_to_chord_tip fuel_wing_fuel_fraction wing_folding_area strut_y : ℝ) : ℝ :=
  (((den wing_area wing_span wing_taper_ratio wing_folding_area strut_y) * (dnum_dwingarea
    wing_area wing_span wing_taper_ratio wing_thickness_to_chord_root
    wing_thickness_to_chord_tip fuel_wing_fuel_fraction wing_folding_area strut_y)) - ((num
    wing_area wing_span wing_taper_ratio wing_thickness_to_chord_root
    wing_thickness_to_chord_tip fuel_wing_fuel_fraction wing_folding_area strut_y) *
    (dden_dwingarea wing_area wing_span wing_taper_ratio wing_folding_area strut_y))) / ((den
    wing_area wing_span wing_taper_ratio wing_folding_area strut_y) ^ 2)

/-- Partial of `fuel_wing_volume_geometric_max` with respect to `wing_folding_area` as set by `WingFoldVolume`, aviary/subsystems/geometry/gasp_based/wing.py:1355 -/
noncomputable def J_fuel_wing_volume_geometric_max__wing_folding_area (wing_area wing_span wing_taper_ratio wing_thickness_to_chord_root wing_thickness_to_chord_tip fuel_wing_fuel_fraction wing_folding_area strut_y : ℝ) : ℝ :=
  (((den wing_area wing_span wing_taper_ratio wing_folding_area strut_y) * (dnum_dwingfoldarea
    wing_area wing_span wing_taper_ratio wing_thickness_to_chord_root
    wing_thickness_to_chord_tip fuel_wing_fuel_fraction wing_folding_area strut_y)) - ((num
    wing_area wing_span wing_taper_ratio wing_thickness_to_chord_root
    wing_thickness_to_chord_tip fuel_wing_fuel_fraction wing_folding_area strut_y) *
    (dden_dwingfoldarea wing_area wing_span wing_taper_ratio wing_folding_area strut_y))) /
    ((den wing_area wing_span wing_taper_ratio wing_folding_area strut_y) ^ 2)

/-- Partial of `fuel_wing_volume_geometric_max` with respect to `wing_taper_ratio` as set by `WingFoldVolume`, aviary/subsystems/geometry/gasp_based/wing.py:1359 -/
noncomputable def J_fuel_wing_volume_geometric_max__wing_taper_ratio (wing_area wing_span wing_taper_ratio wing_thickness_to_chord_root wing_thickness_to_chord_tip fuel_wing_fuel_fraction wing_folding_area strut_y : ℝ) : ℝ :=
  (((den wing_area wing_span wing_taper_ratio wing_folding_area strut_y) * (dnum_dtaperratio
    wing_area wing_span wing_taper_ratio wing_thickness_to_chord_root
    wing_thickness_to_chord_tip fuel_wing_fuel_fraction wing_folding_area strut_y)) - ((num
    wing_area wing_span wing_taper_ratio wing_thickness_to_chord_root
    wing_thickness_to_chord_tip fuel_wing_fuel_fraction wing_folding_area strut_y) *
    (dden_dtaperratio wing_area wing_span wing_taper_ratio wing_folding_area strut_y))) / ((den
    wing_area wing_span wing_taper_ratio wing_folding_area strut_y) ^ 2)

/-- Partial of `fuel_wing_volume_geometric_max` with respect to `strut_y` as set by `WingFoldVolume`, aviary/subsystems/geometry/gasp_based/wing.py:1362 -/
noncomputable def J_fuel_wing_volume_geometric_max__strut_y (wing_area wing_span wing_taper_ratio wing_thickness_to_chord_root wing_thickness_to_chord_tip fuel_wing_fuel_fraction wing_folding_area strut_y : ℝ) : ℝ :=
  (((den wing_area wing_span wing_taper_ratio wing_folding_area strut_y) * (dnum_dy wing_area
    wing_span wing_taper_ratio wing_thickness_to_chord_root wing_thickness_to_chord_tip
    fuel_wing_fuel_fraction wing_folding_area strut_y)) - ((num wing_area wing_span
    wing_taper_ratio wing_thickness_to_chord_root wing_thickness_to_chord_tip
    fuel_wing_fuel_fraction wing_folding_area strut_y) * (dden_dy wing_area wing_span
    wing_taper_ratio wing_folding_area strut_y))) / ((den wing_area wing_span wing_taper_ratio
    wing_folding_area strut_y) ^ 2)

theorem d_nonfolded_taper_ratio__wing_area (wing_area wing_span wing_taper_ratio strut_y : ℝ) (h0
    : 0 < wing_span) (h1 : 0 < wing_taper_ratio) (h2 : 0 < wing_area) :
    HasDerivAt (fun t => out_nonfolded_taper_ratio t wing_span wing_taper_ratio strut_y) (J_nonfolded_taper_ratio__wing_area wing_area wing_span wing_taper_ratio strut_y) wing_area := by
  simp only [out_nonfolded_taper_ratio, J_nonfolded_taper_ratio__wing_area, dnftr_dwingarea, dfoldchord_dwingarea, dtipchord_dwingarea, drootchordwing_dwingarea, nonfolded_taper_ratio, fold_chord, tip_chord, root_chord_wing]
  (apply hasDerivAt_of_eq; on_goal 1 => (repeat' comp_step))
  all_goals try comp_side
  all_goals try simp only [mul_zero, zero_mul, add_zero, zero_add, sub_zero, zero_sub, mul_one, one_mul]
  all_goals try push_cast
  all_goals comp_eq

theorem d_nonfolded_taper_ratio__wing_span (wing_area wing_span wing_taper_ratio strut_y : ℝ) (h0
    : 0 < wing_span) (h1 : 0 < wing_taper_ratio) (h2 : 0 < wing_area) :
    HasDerivAt (fun t => out_nonfolded_taper_ratio wing_area t wing_taper_ratio strut_y) (J_nonfolded_taper_ratio__wing_span wing_area wing_span wing_taper_ratio strut_y) wing_span := by
  simp only [out_nonfolded_taper_ratio, J_nonfolded_taper_ratio__wing_span, dnftr_dwingspan, dfoldchord_dwingspan, dtipchord_dwingspan, drootchordwing_dwingspan, nonfolded_taper_ratio, fold_chord, tip_chord, root_chord_wing]
  (apply hasDerivAt_of_eq; on_goal 1 => (repeat' comp_step))
  all_goals try comp_side
  all_goals try simp only [mul_zero, zero_mul, add_zero, zero_add, sub_zero, zero_sub, mul_one, one_mul]
  all_goals try push_cast
  all_goals comp_eq

theorem d_nonfolded_taper_ratio__wing_taper_ratio (wing_area wing_span wing_taper_ratio strut_y :
    ℝ) (h0 : 0 < wing_span) (h1 : 0 < wing_taper_ratio) (h2 : 0 < wing_area) :
    HasDerivAt (fun t => out_nonfolded_taper_ratio wing_area wing_span t strut_y) (J_nonfolded_taper_ratio__wing_taper_ratio wing_area wing_span wing_taper_ratio strut_y) wing_taper_ratio := by
  simp only [out_nonfolded_taper_ratio, J_nonfolded_taper_ratio__wing_taper_ratio, dnftr_dtaperratio, dfoldchord_dtaperratio, dtipchord_dtaperratio, drootchordwing_dtaperratio, nonfolded_taper_ratio, fold_chord, tip_chord, root_chord_wing]
  (apply hasDerivAt_of_eq; on_goal 1 => (repeat' comp_step))
  all_goals try comp_side
  all_goals try simp only [mul_zero, zero_mul, add_zero, zero_add, sub_zero, zero_sub, mul_one, one_mul]
  all_goals try push_cast
  all_goals comp_eq

theorem d_nonfolded_taper_ratio__strut_y (wing_area wing_span wing_taper_ratio strut_y : ℝ) (h0 :
    0 < wing_span) (h1 : 0 < wing_taper_ratio) (h2 : 0 < wing_area) :
    HasDerivAt (fun t => out_nonfolded_taper_ratio wing_area wing_span wing_taper_ratio t) (J_nonfolded_taper_ratio__strut_y wing_area wing_span wing_taper_ratio) strut_y := by
  simp only [out_nonfolded_taper_ratio, J_nonfolded_taper_ratio__strut_y, dnftr_dy, dfoldchord_dy, nonfolded_taper_ratio, fold_chord, tip_chord, root_chord_wing]
  (apply hasDerivAt_of_eq; on_goal 1 => (repeat' comp_step))
  all_goals try comp_side
  all_goals try simp only [mul_zero, zero_mul, add_zero, zero_add, sub_zero, zero_sub, mul_one, one_mul]
  all_goals try push_cast
  all_goals comp_eq

theorem d_nonfolded_wing_area__wing_area (wing_area wing_folding_area : ℝ)  :
    HasDerivAt (fun t => out_nonfolded_wing_area t wing_folding_area) (J_nonfolded_wing_area__wing_area) wing_area := by
  simp only [out_nonfolded_wing_area, J_nonfolded_wing_area__wing_area, nonfolded_wing_area]
  (apply hasDerivAt_of_eq; on_goal 1 => (repeat' comp_step))
  all_goals try comp_side
  all_goals try simp only [mul_zero, zero_mul, add_zero, zero_add, sub_zero, zero_sub, mul_one, one_mul]
  all_goals try push_cast
  all_goals comp_eq

theorem d_nonfolded_wing_area__wing_folding_area (wing_area wing_folding_area : ℝ)  :
    HasDerivAt (fun t => out_nonfolded_wing_area wing_area t) (J_nonfolded_wing_area__wing_folding_area) wing_folding_area := by
  simp only [out_nonfolded_wing_area, J_nonfolded_wing_area__wing_folding_area, nonfolded_wing_area]
  (apply hasDerivAt_of_eq; on_goal 1 => (repeat' comp_step))
  all_goals try comp_side
  all_goals try simp only [mul_zero, zero_mul, add_zero, zero_add, sub_zero, zero_sub, mul_one, one_mul]
  all_goals try push_cast
  all_goals comp_eq

theorem d_tc_ratio_mean_folded__wing_span (wing_span wing_thickness_to_chord_root
    wing_thickness_to_chord_tip strut_y : ℝ) (h0 : 0 < wing_span) :
    HasDerivAt (fun t => out_tc_ratio_mean_folded t wing_thickness_to_chord_root wing_thickness_to_chord_tip strut_y) (J_tc_ratio_mean_folded__wing_span wing_span wing_thickness_to_chord_root wing_thickness_to_chord_tip strut_y) wing_span := by
  simp only [out_tc_ratio_mean_folded, J_tc_ratio_mean_folded__wing_span, dtc_ratio_rootmeanfolded_dwingspan, dtc_ratio_rootatiofold_dwingspan, tc_ratio_mean_folded, tc_ratio_fold]
  (apply hasDerivAt_of_eq; on_goal 1 => (repeat' comp_step))
  all_goals try comp_side
  all_goals try simp only [mul_zero, zero_mul, add_zero, zero_add, sub_zero, zero_sub, mul_one, one_mul]
  all_goals try push_cast
  all_goals comp_eq

theorem d_tc_ratio_mean_folded__wing_thickness_to_chord_root (wing_span
    wing_thickness_to_chord_root wing_thickness_to_chord_tip strut_y : ℝ) (h0 : 0 < wing_span) :
    HasDerivAt (fun t => out_tc_ratio_mean_folded wing_span t wing_thickness_to_chord_tip strut_y) (J_tc_ratio_mean_folded__wing_thickness_to_chord_root wing_span strut_y) wing_thickness_to_chord_root := by
  simp only [out_tc_ratio_mean_folded, J_tc_ratio_mean_folded__wing_thickness_to_chord_root, dtc_ratio_rootmeanfolded_dtc_ratio_root, dtc_ratio_rootatiofold_dtc_ratio_root, tc_ratio_mean_folded, tc_ratio_fold]
  (apply hasDerivAt_of_eq; on_goal 1 => (repeat' comp_step))
  all_goals try comp_side
  all_goals try simp only [mul_zero, zero_mul, add_zero, zero_add, sub_zero, zero_sub, mul_one, one_mul]
  all_goals try push_cast
  all_goals comp_eq

theorem d_tc_ratio_mean_folded__wing_thickness_to_chord_tip (wing_span
    wing_thickness_to_chord_root wing_thickness_to_chord_tip strut_y : ℝ) (h0 : 0 < wing_span) :
    HasDerivAt (fun t => out_tc_ratio_mean_folded wing_span wing_thickness_to_chord_root t strut_y) (J_tc_ratio_mean_folded__wing_thickness_to_chord_tip wing_span strut_y) wing_thickness_to_chord_tip := by
  simp only [out_tc_ratio_mean_folded, J_tc_ratio_mean_folded__wing_thickness_to_chord_tip, dtc_ratio_rootmeanfolded_dtc_ratio_tip, dtc_ratio_rootatiofold_dtc_ratio_tip, tc_ratio_mean_folded, tc_ratio_fold]
  (apply hasDerivAt_of_eq; on_goal 1 => (repeat' comp_step))
  all_goals try comp_side
  all_goals try simp only [mul_zero, zero_mul, add_zero, zero_add, sub_zero, zero_sub, mul_one, one_mul]
  all_goals try push_cast
  all_goals comp_eq

theorem d_tc_ratio_mean_folded__strut_y (wing_span wing_thickness_to_chord_root
    wing_thickness_to_chord_tip strut_y : ℝ) (h0 : 0 < wing_span) :
    HasDerivAt (fun t => out_tc_ratio_mean_folded wing_span wing_thickness_to_chord_root wing_thickness_to_chord_tip t) (J_tc_ratio_mean_folded__strut_y wing_span wing_thickness_to_chord_root wing_thickness_to_chord_tip) strut_y := by
  simp only [out_tc_ratio_mean_folded, J_tc_ratio_mean_folded__strut_y, dtc_ratio_rootmeanfolded_dy, dtc_ratio_rootatiofold_dy, tc_ratio_mean_folded, tc_ratio_fold]
  (apply hasDerivAt_of_eq; on_goal 1 => (repeat' comp_step))
  all_goals try comp_side
  all_goals try simp only [mul_zero, zero_mul, add_zero, zero_add, sub_zero, zero_sub, mul_one, one_mul]
  all_goals try push_cast
  all_goals comp_eq

theorem d_nonfolded_ar__wing_area (wing_area wing_folding_area strut_y : ℝ) (h0 : wing_area -
    wing_folding_area ≠ 0) :
    HasDerivAt (fun t => out_nonfolded_ar t wing_folding_area strut_y) (J_nonfolded_ar__wing_area wing_area wing_folding_area strut_y) wing_area := by
  simp only [out_nonfolded_ar, J_nonfolded_ar__wing_area, dnfar_dwingarea, nonfolded_ar, nonfolded_wing_area]
  (apply hasDerivAt_of_eq; on_goal 1 => (repeat' comp_step))
  all_goals try comp_side
  all_goals try simp only [mul_zero, zero_mul, add_zero, zero_add, sub_zero, zero_sub, mul_one, one_mul]
  all_goals try push_cast
  all_goals comp_eq

theorem d_nonfolded_ar__wing_span (wing_area wing_span wing_folding_area strut_y : ℝ) (h0 :
    wing_area - wing_folding_area ≠ 0) :
    HasDerivAt (fun t => out_nonfolded_ar wing_area wing_folding_area strut_y) (J_nonfolded_ar__wing_span wing_area wing_folding_area strut_y) wing_span := by
  simp only [out_nonfolded_ar, J_nonfolded_ar__wing_span, dnfar_dwingspan, nonfolded_ar, nonfolded_wing_area]
  (apply hasDerivAt_of_eq; on_goal 1 => (repeat' comp_step))
  all_goals try comp_side
  all_goals try simp only [mul_zero, zero_mul, add_zero, zero_add, sub_zero, zero_sub, mul_one, one_mul]
  all_goals try push_cast
  all_goals comp_eq

theorem d_nonfolded_ar__wing_folding_area (wing_area wing_folding_area strut_y : ℝ) (h0 :
    wing_area - wing_folding_area ≠ 0) :
    HasDerivAt (fun t => out_nonfolded_ar wing_area t strut_y) (J_nonfolded_ar__wing_folding_area wing_area wing_folding_area strut_y) wing_folding_area := by
  simp only [out_nonfolded_ar, J_nonfolded_ar__wing_folding_area, dnfar_dwingfoldarea, nonfolded_ar, nonfolded_wing_area]
  (apply hasDerivAt_of_eq; on_goal 1 => (repeat' comp_step))
  all_goals try comp_side
  all_goals try simp only [mul_zero, zero_mul, add_zero, zero_add, sub_zero, zero_sub, mul_one, one_mul]
  all_goals try push_cast
  all_goals comp_eq

theorem d_nonfolded_ar__strut_y (wing_area wing_folding_area strut_y : ℝ) (h0 : wing_area -
    wing_folding_area ≠ 0) :
    HasDerivAt (fun t => out_nonfolded_ar wing_area wing_folding_area t) (J_nonfolded_ar__strut_y wing_area wing_folding_area strut_y) strut_y := by
  simp only [out_nonfolded_ar, J_nonfolded_ar__strut_y, dnfar_dy, nonfolded_ar, nonfolded_wing_area]
  (apply hasDerivAt_of_eq; on_goal 1 => (repeat' comp_step))
  all_goals try comp_side
  all_goals try simp only [mul_zero, zero_mul, add_zero, zero_add, sub_zero, zero_sub, mul_one, one_mul]
  all_goals try push_cast
  all_goals comp_eq

theorem d_fuel_wing_volume_geometric_max__wing_area (wing_area wing_span wing_taper_ratio
    wing_thickness_to_chord_root wing_thickness_to_chord_tip fuel_wing_fuel_fraction
    wing_folding_area strut_y : ℝ) (h0 : 0 < wing_span) (h1 : 0 < wing_area - wing_folding_area)
    (h2 : 0 < wing_taper_ratio) (h3 : 0 < wing_area) (h4 : wing_area - wing_folding_area ≠ 0) (h5
    : 0 < strut_y) (h6 : 0 < ((2 * wing_area) / (wing_span * (1 + wing_taper_ratio))) + ((strut_y
    * ((wing_taper_ratio * ((2 * wing_area) / (wing_span * (1 + wing_taper_ratio)))) - ((2 *
    wing_area) / (wing_span * (1 + wing_taper_ratio))))) / (wing_span / 2))) :
    HasDerivAt (fun t => out_fuel_wing_volume_geometric_max t wing_span wing_taper_ratio wing_thickness_to_chord_root wing_thickness_to_chord_tip fuel_wing_fuel_fraction wing_folding_area strut_y) (J_fuel_wing_volume_geometric_max__wing_area wing_area wing_span wing_taper_ratio wing_thickness_to_chord_root wing_thickness_to_chord_tip fuel_wing_fuel_fraction wing_folding_area strut_y) wing_area := by
  have hf6 : 0 < (root_chord_wing wing_area wing_span wing_taper_ratio) + ((strut_y * ((tip_chord wing_area wing_span wing_taper_ratio) - (root_chord_wing wing_area wing_span wing_taper_ratio))) / (wing_span / 2)) := by simp only [dden_dwingarea, dnfar_dwingarea, num, a, dnum_dwingarea, dnftr_dwingarea, dfoldchord_dwingarea, dtipchord_dwingarea, drootchordwing_dwingarea, tc_ratio_mean_folded, tc_ratio_fold, den, nonfolded_taper_ratio, fold_chord, tip_chord, root_chord_wing, nonfolded_ar, nonfolded_wing_area, geometric_fuel_vol]; exact h6
  have hp0 : root_chord_wing wing_area wing_span wing_taper_ratio ≠ 0 := by simp only [dden_dwingarea, dnfar_dwingarea, num, a, dnum_dwingarea, dnftr_dwingarea, dfoldchord_dwingarea, dtipchord_dwingarea, drootchordwing_dwingarea, tc_ratio_mean_folded, tc_ratio_fold, den, nonfolded_taper_ratio, fold_chord, tip_chord, root_chord_wing, nonfolded_ar, nonfolded_wing_area, geometric_fuel_vol]; comp_side
  have hp1 : nonfolded_wing_area wing_area wing_folding_area ≠ 0 := by simp only [dden_dwingarea, dnfar_dwingarea, num, a, dnum_dwingarea, dnftr_dwingarea, dfoldchord_dwingarea, dtipchord_dwingarea, drootchordwing_dwingarea, tc_ratio_mean_folded, tc_ratio_fold, den, nonfolded_taper_ratio, fold_chord, tip_chord, root_chord_wing, nonfolded_ar, nonfolded_wing_area, geometric_fuel_vol]; comp_side
  have hp2 : 0 < nonfolded_wing_area wing_area wing_folding_area := by simp only [dden_dwingarea, dnfar_dwingarea, num, a, dnum_dwingarea, dnftr_dwingarea, dfoldchord_dwingarea, dtipchord_dwingarea, drootchordwing_dwingarea, tc_ratio_mean_folded, tc_ratio_fold, den, nonfolded_taper_ratio, fold_chord, tip_chord, root_chord_wing, nonfolded_ar, nonfolded_wing_area, geometric_fuel_vol]; comp_side
  have hp3 : 0 < nonfolded_ar wing_area wing_folding_area strut_y := by simp only [dden_dwingarea, dnfar_dwingarea, num, a, dnum_dwingarea, dnftr_dwingarea, dfoldchord_dwingarea, dtipchord_dwingarea, drootchordwing_dwingarea, tc_ratio_mean_folded, tc_ratio_fold, den, nonfolded_taper_ratio, fold_chord, tip_chord, root_chord_wing, nonfolded_ar, nonfolded_wing_area, geometric_fuel_vol]; comp_side
  have hp4 : 0 < nonfolded_taper_ratio wing_area wing_span wing_taper_ratio strut_y := by simp only [dden_dwingarea, dnfar_dwingarea, num, a, dnum_dwingarea, dnftr_dwingarea, dfoldchord_dwingarea, dtipchord_dwingarea, drootchordwing_dwingarea, tc_ratio_mean_folded, tc_ratio_fold, den, nonfolded_taper_ratio, fold_chord, tip_chord, root_chord_wing, nonfolded_ar, nonfolded_wing_area, geometric_fuel_vol]; comp_side
  have hp5 : den wing_area wing_span wing_taper_ratio wing_folding_area strut_y ≠ 0 := by simp only [dden_dwingarea, dnfar_dwingarea, num, a, dnum_dwingarea, dnftr_dwingarea, dfoldchord_dwingarea, dtipchord_dwingarea, drootchordwing_dwingarea, tc_ratio_mean_folded, tc_ratio_fold, den, nonfolded_taper_ratio, fold_chord, tip_chord, root_chord_wing, nonfolded_ar, nonfolded_wing_area, geometric_fuel_vol]; comp_side
  have e0 : ∀ x : ℝ, 0 < x → x ^ ((-(1 / 2)) : ℝ) = x ^ ((1 / 2) : ℝ) / x ^ 1 := fun x hx => rpow_down hx 1 (by norm_num)
  have e1 : ∀ x : ℝ, 0 < x → x ^ ((3 / 2) : ℝ) = x ^ ((1 / 2) : ℝ) * x ^ 1 := fun x hx => rpow_up hx 1 (by norm_num)
  obtain ⟨D_nonfolded_wing_area, hD_nonfolded_wing_area, k_nonfolded_wing_area⟩ : ∃ D : ℝ, D = 1 ∧
      HasDerivAt (fun t => nonfolded_wing_area t wing_folding_area) D wing_area := by
    refine ⟨_, rfl, ?_⟩
    simp only [nonfolded_wing_area]
    apply hasDerivAt_of_eq; on_goal 1 => (repeat' comp_step)
    all_goals try first | comp_side | (apply HasDerivAt.continuousAt; (repeat' comp_step); all_goals comp_side)
    all_goals try simp (disch := first | assumption | positivity) only [e0, e1, div_mul_eq_div_div, div_half, inv_half]
    all_goals try simp only [mul_zero, zero_mul, add_zero, zero_add, sub_zero, zero_sub, mul_one, one_mul, sub_self]
    all_goals try push_cast
    all_goals comp_eq
  obtain ⟨D_root_chord_wing, hD_root_chord_wing, k_root_chord_wing⟩ : ∃ D : ℝ, D = 2 / (wing_span * (1 + wing_taper_ratio)) ∧
      HasDerivAt (fun t => root_chord_wing t wing_span wing_taper_ratio) D wing_area := by
    refine ⟨_, rfl, ?_⟩
    simp only [root_chord_wing]
    apply hasDerivAt_of_eq; on_goal 1 => (repeat' comp_step)
    all_goals try first | comp_side | (apply HasDerivAt.continuousAt; (repeat' comp_step); all_goals comp_side)
    all_goals try simp (disch := first | assumption | positivity) only [e0, e1, div_mul_eq_div_div, div_half, inv_half]
    all_goals try simp only [mul_zero, zero_mul, add_zero, zero_add, sub_zero, zero_sub, mul_one, one_mul, sub_self]
    all_goals try push_cast
    all_goals comp_eq
  obtain ⟨D_tip_chord, hD_tip_chord, k_tip_chord⟩ : ∃ D : ℝ, D = wing_taper_ratio * D_root_chord_wing ∧
      HasDerivAt (fun t => tip_chord t wing_span wing_taper_ratio) D wing_area := by
    refine ⟨_, rfl, ?_⟩
    simp only [tip_chord]
    apply hasDerivAt_of_eq; on_goal 1 => (repeat' comp_step)
    all_goals try first | comp_side | (apply HasDerivAt.continuousAt; (repeat' comp_step); all_goals comp_side)
    all_goals try simp (disch := first | assumption | positivity) only [e0, e1, div_mul_eq_div_div, div_half, inv_half]
    all_goals try simp only [mul_zero, zero_mul, add_zero, zero_add, sub_zero, zero_sub, mul_one, one_mul, sub_self]
    all_goals try push_cast
    all_goals comp_eq
  obtain ⟨D_fold_chord, hD_fold_chord, k_fold_chord⟩ : ∃ D : ℝ, D = D_root_chord_wing + ((strut_y * (D_tip_chord - D_root_chord_wing)) / (wing_span / 2)) ∧
      HasDerivAt (fun t => fold_chord t wing_span wing_taper_ratio strut_y) D wing_area := by
    refine ⟨_, rfl, ?_⟩
    simp only [fold_chord]
    apply hasDerivAt_of_eq; on_goal 1 => (repeat' comp_step)
    all_goals try first | comp_side | (apply HasDerivAt.continuousAt; (repeat' comp_step); all_goals comp_side)
    all_goals try simp (disch := first | assumption | positivity) only [e0, e1, div_mul_eq_div_div, div_half, inv_half]
    all_goals try simp only [mul_zero, zero_mul, add_zero, zero_add, sub_zero, zero_sub, mul_one, one_mul, sub_self]
    all_goals try push_cast
    all_goals comp_eq
  obtain ⟨D_nonfolded_taper_ratio, hD_nonfolded_taper_ratio, k_nonfolded_taper_ratio⟩ : ∃ D : ℝ, D = ((D_fold_chord * (root_chord_wing wing_area wing_span wing_taper_ratio)) - ((fold_chord wing_area wing_span wing_taper_ratio strut_y) * D_root_chord_wing)) / ((root_chord_wing wing_area wing_span wing_taper_ratio) ^ 2) ∧
      HasDerivAt (fun t => nonfolded_taper_ratio t wing_span wing_taper_ratio strut_y) D wing_area := by
    refine ⟨_, rfl, ?_⟩
    simp only [nonfolded_taper_ratio]
    apply hasDerivAt_of_eq; on_goal 1 => (repeat' comp_step)
    all_goals try first | comp_side | (apply HasDerivAt.continuousAt; (repeat' comp_step); all_goals comp_side)
    all_goals try simp (disch := first | assumption | positivity) only [e0, e1, div_mul_eq_div_div, div_half, inv_half]
    all_goals try simp only [mul_zero, zero_mul, add_zero, zero_add, sub_zero, zero_sub, mul_one, one_mul, sub_self]
    all_goals try push_cast
    all_goals comp_eq
  obtain ⟨D_nonfolded_ar, hD_nonfolded_ar, k_nonfolded_ar⟩ : ∃ D : ℝ, D = -(((4 * (strut_y ^ 2)) * D_nonfolded_wing_area) / ((nonfolded_wing_area wing_area wing_folding_area) ^ 2)) ∧
      HasDerivAt (fun t => nonfolded_ar t wing_folding_area strut_y) D wing_area := by
    refine ⟨_, rfl, ?_⟩
    simp only [nonfolded_ar]
    apply hasDerivAt_of_eq; on_goal 1 => (repeat' comp_step)
    all_goals try first | comp_side | (apply HasDerivAt.continuousAt; (repeat' comp_step); all_goals comp_side)
    all_goals try simp (disch := first | assumption | positivity) only [e0, e1, div_mul_eq_div_div, div_half, inv_half]
    all_goals try simp only [mul_zero, zero_mul, add_zero, zero_add, sub_zero, zero_sub, mul_one, one_mul, sub_self]
    all_goals try push_cast
    all_goals comp_eq
  obtain ⟨D_geometric_fuel_vol, hD_geometric_fuel_vol, k_geometric_fuel_vol⟩ : ∃ D : ℝ, D = (((((((fuel_wing_fuel_fraction * (888889 / 1000000)) * (tc_ratio_mean_folded wing_span wing_thickness_to_chord_root wing_thickness_to_chord_tip strut_y)) * (((3 / 2) * ((nonfolded_wing_area wing_area wing_folding_area) ^ ((1 / 2) : ℝ))) * D_nonfolded_wing_area)) * ((2 * (nonfolded_taper_ratio wing_area wing_span wing_taper_ratio strut_y)) + 1)) + ((((fuel_wing_fuel_fraction * (888889 / 1000000)) * (tc_ratio_mean_folded wing_span wing_thickness_to_chord_root wing_thickness_to_chord_tip strut_y)) * ((nonfolded_wing_area wing_area wing_folding_area) ^ ((3 / 2) : ℝ))) * (2 * D_nonfolded_taper_ratio))) * (((nonfolded_ar wing_area wing_folding_area strut_y) ^ ((1 / 2) : ℝ)) * (((nonfolded_taper_ratio wing_area wing_span wing_taper_ratio strut_y) + 1) ^ 2))) - (((((fuel_wing_fuel_fraction * (888889 / 1000000)) * (tc_ratio_mean_folded wing_span wing_thickness_to_chord_root wing_thickness_to_chord_tip strut_y)) * ((nonfolded_wing_area wing_area wing_folding_area) ^ ((3 / 2) : ℝ))) * ((2 * (nonfolded_taper_ratio wing_area wing_span wing_taper_ratio strut_y)) + 1)) * (((((1 / 2) * ((nonfolded_ar wing_area wing_folding_area strut_y) ^ ((-(1 / 2)) : ℝ))) * D_nonfolded_ar) * (((nonfolded_taper_ratio wing_area wing_span wing_taper_ratio strut_y) + 1) ^ 2)) + (((nonfolded_ar wing_area wing_folding_area strut_y) ^ ((1 / 2) : ℝ)) * ((2 * (((nonfolded_taper_ratio wing_area wing_span wing_taper_ratio strut_y) + 1) ^ 1)) * D_nonfolded_taper_ratio))))) / ((((nonfolded_ar wing_area wing_folding_area strut_y) ^ ((1 / 2) : ℝ)) * (((nonfolded_taper_ratio wing_area wing_span wing_taper_ratio strut_y) + 1) ^ 2)) ^ 2) ∧
      HasDerivAt (fun t => geometric_fuel_vol t wing_span wing_taper_ratio wing_thickness_to_chord_root wing_thickness_to_chord_tip fuel_wing_fuel_fraction wing_folding_area strut_y) D wing_area := by
    refine ⟨_, rfl, ?_⟩
    simp only [geometric_fuel_vol]
    apply hasDerivAt_of_eq; on_goal 1 => (repeat' comp_step)
    all_goals try first | comp_side | (apply HasDerivAt.continuousAt; (repeat' comp_step); all_goals comp_side)
    all_goals try simp (disch := first | assumption | positivity) only [e0, e1, div_mul_eq_div_div, div_half, inv_half]
    all_goals try simp only [mul_zero, zero_mul, add_zero, zero_add, sub_zero, zero_sub, mul_one, one_mul, sub_self]
    all_goals try push_cast
    all_goals comp_eq
  try simp only [out_fuel_wing_volume_geometric_max, J_fuel_wing_volume_geometric_max__wing_area, dden_dwingarea, dnfar_dwingarea, num, a, dnum_dwingarea, dnftr_dwingarea, dfoldchord_dwingarea, dtipchord_dwingarea, drootchordwing_dwingarea, den]
  all_goals (apply hasDerivAt_of_eq; on_goal 1 => (repeat' comp_step))
  all_goals try first | comp_side | (apply HasDerivAt.continuousAt; (repeat' comp_step); all_goals comp_side)
  all_goals try simp only [hD_nonfolded_wing_area, hD_root_chord_wing, hD_tip_chord, hD_fold_chord, hD_nonfolded_taper_ratio, hD_nonfolded_ar, hD_geometric_fuel_vol]
  all_goals try simp (disch := first | assumption | positivity) only [e0, e1, div_mul_eq_div_div, div_half, inv_half]
  all_goals try simp only [mul_zero, zero_mul, add_zero, zero_add, sub_zero, zero_sub, mul_one, one_mul, sub_self]
  all_goals try push_cast
  all_goals comp_eq

theorem d_fuel_wing_volume_geometric_max__wing_span (wing_area wing_span wing_taper_ratio
    wing_thickness_to_chord_root wing_thickness_to_chord_tip fuel_wing_fuel_fraction
    wing_folding_area strut_y : ℝ) (h0 : 0 < wing_span) (h1 : 0 < wing_area - wing_folding_area)
    (h2 : 0 < wing_taper_ratio) (h3 : 0 < wing_area) (h4 : wing_area - wing_folding_area ≠ 0) (h5
    : 0 < strut_y) (h6 : 0 < ((2 * wing_area) / (wing_span * (1 + wing_taper_ratio))) + ((strut_y
    * ((wing_taper_ratio * ((2 * wing_area) / (wing_span * (1 + wing_taper_ratio)))) - ((2 *
    wing_area) / (wing_span * (1 + wing_taper_ratio))))) / (wing_span / 2))) :
    HasDerivAt (fun t => out_fuel_wing_volume_geometric_max wing_area t wing_taper_ratio wing_thickness_to_chord_root wing_thickness_to_chord_tip fuel_wing_fuel_fraction wing_folding_area strut_y) (J_fuel_wing_volume_geometric_max__wing_span wing_area wing_span wing_taper_ratio wing_thickness_to_chord_root wing_thickness_to_chord_tip fuel_wing_fuel_fraction wing_folding_area strut_y) wing_span := by
  have hf6 : 0 < (root_chord_wing wing_area wing_span wing_taper_ratio) + ((strut_y * ((tip_chord wing_area wing_span wing_taper_ratio) - (root_chord_wing wing_area wing_span wing_taper_ratio))) / (wing_span / 2)) := by simp only [dden_dwingspan, dnfar_dwingspan, num, dnum_dwingspan, da_dwingspan, dnftr_dwingspan, dfoldchord_dwingspan, dtipchord_dwingspan, drootchordwing_dwingspan, tc_ratio_mean_folded, tc_ratio_fold, a, dtc_ratio_rootmeanfolded_dwingspan, dtc_ratio_rootatiofold_dwingspan, den, nonfolded_taper_ratio, fold_chord, tip_chord, root_chord_wing, nonfolded_ar, nonfolded_wing_area, geometric_fuel_vol]; exact h6
  have hp0 : root_chord_wing wing_area wing_span wing_taper_ratio ≠ 0 := by simp only [dden_dwingspan, dnfar_dwingspan, num, dnum_dwingspan, da_dwingspan, dnftr_dwingspan, dfoldchord_dwingspan, dtipchord_dwingspan, drootchordwing_dwingspan, tc_ratio_mean_folded, tc_ratio_fold, a, dtc_ratio_rootmeanfolded_dwingspan, dtc_ratio_rootatiofold_dwingspan, den, nonfolded_taper_ratio, fold_chord, tip_chord, root_chord_wing, nonfolded_ar, nonfolded_wing_area, geometric_fuel_vol]; comp_side
  have hp1 : nonfolded_wing_area wing_area wing_folding_area ≠ 0 := by simp only [dden_dwingspan, dnfar_dwingspan, num, dnum_dwingspan, da_dwingspan, dnftr_dwingspan, dfoldchord_dwingspan, dtipchord_dwingspan, drootchordwing_dwingspan, tc_ratio_mean_folded, tc_ratio_fold, a, dtc_ratio_rootmeanfolded_dwingspan, dtc_ratio_rootatiofold_dwingspan, den, nonfolded_taper_ratio, fold_chord, tip_chord, root_chord_wing, nonfolded_ar, nonfolded_wing_area, geometric_fuel_vol]; comp_side
  have hp2 : 0 < nonfolded_wing_area wing_area wing_folding_area := by simp only [dden_dwingspan, dnfar_dwingspan, num, dnum_dwingspan, da_dwingspan, dnftr_dwingspan, dfoldchord_dwingspan, dtipchord_dwingspan, drootchordwing_dwingspan, tc_ratio_mean_folded, tc_ratio_fold, a, dtc_ratio_rootmeanfolded_dwingspan, dtc_ratio_rootatiofold_dwingspan, den, nonfolded_taper_ratio, fold_chord, tip_chord, root_chord_wing, nonfolded_ar, nonfolded_wing_area, geometric_fuel_vol]; comp_side
  have hp3 : 0 < nonfolded_ar wing_area wing_folding_area strut_y := by simp only [dden_dwingspan, dnfar_dwingspan, num, dnum_dwingspan, da_dwingspan, dnftr_dwingspan, dfoldchord_dwingspan, dtipchord_dwingspan, drootchordwing_dwingspan, tc_ratio_mean_folded, tc_ratio_fold, a, dtc_ratio_rootmeanfolded_dwingspan, dtc_ratio_rootatiofold_dwingspan, den, nonfolded_taper_ratio, fold_chord, tip_chord, root_chord_wing, nonfolded_ar, nonfolded_wing_area, geometric_fuel_vol]; comp_side
  have hp4 : 0 < nonfolded_taper_ratio wing_area wing_span wing_taper_ratio strut_y := by simp only [dden_dwingspan, dnfar_dwingspan, num, dnum_dwingspan, da_dwingspan, dnftr_dwingspan, dfoldchord_dwingspan, dtipchord_dwingspan, drootchordwing_dwingspan, tc_ratio_mean_folded, tc_ratio_fold, a, dtc_ratio_rootmeanfolded_dwingspan, dtc_ratio_rootatiofold_dwingspan, den, nonfolded_taper_ratio, fold_chord, tip_chord, root_chord_wing, nonfolded_ar, nonfolded_wing_area, geometric_fuel_vol]; comp_side
  have hp5 : den wing_area wing_span wing_taper_ratio wing_folding_area strut_y ≠ 0 := by simp only [dden_dwingspan, dnfar_dwingspan, num, dnum_dwingspan, da_dwingspan, dnftr_dwingspan, dfoldchord_dwingspan, dtipchord_dwingspan, drootchordwing_dwingspan, tc_ratio_mean_folded, tc_ratio_fold, a, dtc_ratio_rootmeanfolded_dwingspan, dtc_ratio_rootatiofold_dwingspan, den, nonfolded_taper_ratio, fold_chord, tip_chord, root_chord_wing, nonfolded_ar, nonfolded_wing_area, geometric_fuel_vol]; comp_side
  have e0 : ∀ x : ℝ, 0 < x → x ^ ((-(1 / 2)) : ℝ) = x ^ ((1 / 2) : ℝ) / x ^ 1 := fun x hx => rpow_down hx 1 (by norm_num)
  have e1 : ∀ x : ℝ, 0 < x → x ^ ((3 / 2) : ℝ) = x ^ ((1 / 2) : ℝ) * x ^ 1 := fun x hx => rpow_up hx 1 (by norm_num)
  obtain ⟨D_tc_ratio_fold, hD_tc_ratio_fold, k_tc_ratio_fold⟩ : ∃ D : ℝ, D = -(((strut_y * (wing_thickness_to_chord_tip - wing_thickness_to_chord_root)) * (1 / 2)) / ((wing_span / 2) ^ 2)) ∧
      HasDerivAt (fun t => tc_ratio_fold t wing_thickness_to_chord_root wing_thickness_to_chord_tip strut_y) D wing_span := by
    refine ⟨_, rfl, ?_⟩
    simp only [tc_ratio_fold]
    apply hasDerivAt_of_eq; on_goal 1 => (repeat' comp_step)
    all_goals try first | comp_side | (apply HasDerivAt.continuousAt; (repeat' comp_step); all_goals comp_side)
    all_goals try simp (disch := first | assumption | positivity) only [e0, e1, div_mul_eq_div_div, div_half, inv_half]
    all_goals try simp only [mul_zero, zero_mul, add_zero, zero_add, sub_zero, zero_sub, mul_one, one_mul, sub_self]
    all_goals try push_cast
    all_goals comp_eq
  obtain ⟨D_tc_ratio_mean_folded, hD_tc_ratio_mean_folded, k_tc_ratio_mean_folded⟩ : ∃ D : ℝ, D = (1 / 2) * D_tc_ratio_fold ∧
      HasDerivAt (fun t => tc_ratio_mean_folded t wing_thickness_to_chord_root wing_thickness_to_chord_tip strut_y) D wing_span := by
    refine ⟨_, rfl, ?_⟩
    simp only [tc_ratio_mean_folded]
    apply hasDerivAt_of_eq; on_goal 1 => (repeat' comp_step)
    all_goals try first | comp_side | (apply HasDerivAt.continuousAt; (repeat' comp_step); all_goals comp_side)
    all_goals try simp (disch := first | assumption | positivity) only [e0, e1, div_mul_eq_div_div, div_half, inv_half]
    all_goals try simp only [mul_zero, zero_mul, add_zero, zero_add, sub_zero, zero_sub, mul_one, one_mul, sub_self]
    all_goals try push_cast
    all_goals comp_eq
  obtain ⟨D_root_chord_wing, hD_root_chord_wing, k_root_chord_wing⟩ : ∃ D : ℝ, D = -(((2 * wing_area) * (1 + wing_taper_ratio)) / ((wing_span * (1 + wing_taper_ratio)) ^ 2)) ∧
      HasDerivAt (fun t => root_chord_wing wing_area t wing_taper_ratio) D wing_span := by
    refine ⟨_, rfl, ?_⟩
    simp only [root_chord_wing]
    apply hasDerivAt_of_eq; on_goal 1 => (repeat' comp_step)
    all_goals try first | comp_side | (apply HasDerivAt.continuousAt; (repeat' comp_step); all_goals comp_side)
    all_goals try simp (disch := first | assumption | positivity) only [e0, e1, div_mul_eq_div_div, div_half, inv_half]
    all_goals try simp only [mul_zero, zero_mul, add_zero, zero_add, sub_zero, zero_sub, mul_one, one_mul, sub_self]
    all_goals try push_cast
    all_goals comp_eq
  obtain ⟨D_tip_chord, hD_tip_chord, k_tip_chord⟩ : ∃ D : ℝ, D = wing_taper_ratio * D_root_chord_wing ∧
      HasDerivAt (fun t => tip_chord wing_area t wing_taper_ratio) D wing_span := by
    refine ⟨_, rfl, ?_⟩
    simp only [tip_chord]
    apply hasDerivAt_of_eq; on_goal 1 => (repeat' comp_step)
    all_goals try first | comp_side | (apply HasDerivAt.continuousAt; (repeat' comp_step); all_goals comp_side)
    all_goals try simp (disch := first | assumption | positivity) only [e0, e1, div_mul_eq_div_div, div_half, inv_half]
    all_goals try simp only [mul_zero, zero_mul, add_zero, zero_add, sub_zero, zero_sub, mul_one, one_mul, sub_self]
    all_goals try push_cast
    all_goals comp_eq
  obtain ⟨D_fold_chord, hD_fold_chord, k_fold_chord⟩ : ∃ D : ℝ, D = D_root_chord_wing + ((((strut_y * (D_tip_chord - D_root_chord_wing)) * (wing_span / 2)) - ((strut_y * ((tip_chord wing_area wing_span wing_taper_ratio) - (root_chord_wing wing_area wing_span wing_taper_ratio))) * (1 / 2))) / ((wing_span / 2) ^ 2)) ∧
      HasDerivAt (fun t => fold_chord wing_area t wing_taper_ratio strut_y) D wing_span := by
    refine ⟨_, rfl, ?_⟩
    simp only [fold_chord]
    apply hasDerivAt_of_eq; on_goal 1 => (repeat' comp_step)
    all_goals try first | comp_side | (apply HasDerivAt.continuousAt; (repeat' comp_step); all_goals comp_side)
    all_goals try simp (disch := first | assumption | positivity) only [e0, e1, div_mul_eq_div_div, div_half, inv_half]
    all_goals try simp only [mul_zero, zero_mul, add_zero, zero_add, sub_zero, zero_sub, mul_one, one_mul, sub_self]
    all_goals try push_cast
    all_goals comp_eq
  obtain ⟨D_nonfolded_taper_ratio, hD_nonfolded_taper_ratio, k_nonfolded_taper_ratio⟩ : ∃ D : ℝ, D = ((D_fold_chord * (root_chord_wing wing_area wing_span wing_taper_ratio)) - ((fold_chord wing_area wing_span wing_taper_ratio strut_y) * D_root_chord_wing)) / ((root_chord_wing wing_area wing_span wing_taper_ratio) ^ 2) ∧
      HasDerivAt (fun t => nonfolded_taper_ratio wing_area t wing_taper_ratio strut_y) D wing_span := by
    refine ⟨_, rfl, ?_⟩
    simp only [nonfolded_taper_ratio]
    apply hasDerivAt_of_eq; on_goal 1 => (repeat' comp_step)
    all_goals try first | comp_side | (apply HasDerivAt.continuousAt; (repeat' comp_step); all_goals comp_side)
    all_goals try simp (disch := first | assumption | positivity) only [e0, e1, div_mul_eq_div_div, div_half, inv_half]
    all_goals try simp only [mul_zero, zero_mul, add_zero, zero_add, sub_zero, zero_sub, mul_one, one_mul, sub_self]
    all_goals try push_cast
    all_goals comp_eq
  obtain ⟨D_geometric_fuel_vol, hD_geometric_fuel_vol, k_geometric_fuel_vol⟩ : ∃ D : ℝ, D = (((((((fuel_wing_fuel_fraction * (888889 / 1000000)) * D_tc_ratio_mean_folded) * ((nonfolded_wing_area wing_area wing_folding_area) ^ ((3 / 2) : ℝ))) * ((2 * (nonfolded_taper_ratio wing_area wing_span wing_taper_ratio strut_y)) + 1)) + ((((fuel_wing_fuel_fraction * (888889 / 1000000)) * (tc_ratio_mean_folded wing_span wing_thickness_to_chord_root wing_thickness_to_chord_tip strut_y)) * ((nonfolded_wing_area wing_area wing_folding_area) ^ ((3 / 2) : ℝ))) * (2 * D_nonfolded_taper_ratio))) * (((nonfolded_ar wing_area wing_folding_area strut_y) ^ ((1 / 2) : ℝ)) * (((nonfolded_taper_ratio wing_area wing_span wing_taper_ratio strut_y) + 1) ^ 2))) - (((((fuel_wing_fuel_fraction * (888889 / 1000000)) * (tc_ratio_mean_folded wing_span wing_thickness_to_chord_root wing_thickness_to_chord_tip strut_y)) * ((nonfolded_wing_area wing_area wing_folding_area) ^ ((3 / 2) : ℝ))) * ((2 * (nonfolded_taper_ratio wing_area wing_span wing_taper_ratio strut_y)) + 1)) * (((nonfolded_ar wing_area wing_folding_area strut_y) ^ ((1 / 2) : ℝ)) * ((2 * (((nonfolded_taper_ratio wing_area wing_span wing_taper_ratio strut_y) + 1) ^ 1)) * D_nonfolded_taper_ratio)))) / ((((nonfolded_ar wing_area wing_folding_area strut_y) ^ ((1 / 2) : ℝ)) * (((nonfolded_taper_ratio wing_area wing_span wing_taper_ratio strut_y) + 1) ^ 2)) ^ 2) ∧
      HasDerivAt (fun t => geometric_fuel_vol wing_area t wing_taper_ratio wing_thickness_to_chord_root wing_thickness_to_chord_tip fuel_wing_fuel_fraction wing_folding_area strut_y) D wing_span := by
    refine ⟨_, rfl, ?_⟩
    simp only [geometric_fuel_vol]
    apply hasDerivAt_of_eq; on_goal 1 => (repeat' comp_step)
    all_goals try first | comp_side | (apply HasDerivAt.continuousAt; (repeat' comp_step); all_goals comp_side)
    all_goals try simp (disch := first | assumption | positivity) only [e0, e1, div_mul_eq_div_div, div_half, inv_half]
    all_goals try simp only [mul_zero, zero_mul, add_zero, zero_add, sub_zero, zero_sub, mul_one, one_mul, sub_self]
    all_goals try push_cast
    all_goals comp_eq
  try simp only [out_fuel_wing_volume_geometric_max, J_fuel_wing_volume_geometric_max__wing_span, dden_dwingspan, dnfar_dwingspan, num, dnum_dwingspan, da_dwingspan, dnftr_dwingspan, dfoldchord_dwingspan, dtipchord_dwingspan, drootchordwing_dwingspan, a, dtc_ratio_rootmeanfolded_dwingspan, dtc_ratio_rootatiofold_dwingspan, den]
  all_goals (apply hasDerivAt_of_eq; on_goal 1 => (repeat' comp_step))
  all_goals try first | comp_side | (apply HasDerivAt.continuousAt; (repeat' comp_step); all_goals comp_side)
  all_goals try simp only [hD_tc_ratio_fold, hD_tc_ratio_mean_folded, hD_root_chord_wing, hD_tip_chord, hD_fold_chord, hD_nonfolded_taper_ratio, hD_geometric_fuel_vol]
  all_goals try simp (disch := first | assumption | positivity) only [e0, e1, div_mul_eq_div_div, div_half, inv_half]
  all_goals try simp only [mul_zero, zero_mul, add_zero, zero_add, sub_zero, zero_sub, mul_one, one_mul, sub_self]
  all_goals try push_cast
  all_goals comp_eq

theorem d_fuel_wing_volume_geometric_max__wing_taper_ratio (wing_area wing_span wing_taper_ratio
    wing_thickness_to_chord_root wing_thickness_to_chord_tip fuel_wing_fuel_fraction
    wing_folding_area strut_y : ℝ) (h0 : 0 < wing_span) (h1 : 0 < wing_area - wing_folding_area)
    (h2 : 0 < wing_taper_ratio) (h3 : 0 < wing_area) (h4 : wing_area - wing_folding_area ≠ 0) (h5
    : 0 < strut_y) (h6 : 0 < ((2 * wing_area) / (wing_span * (1 + wing_taper_ratio))) + ((strut_y
    * ((wing_taper_ratio * ((2 * wing_area) / (wing_span * (1 + wing_taper_ratio)))) - ((2 *
    wing_area) / (wing_span * (1 + wing_taper_ratio))))) / (wing_span / 2))) :
    HasDerivAt (fun t => out_fuel_wing_volume_geometric_max wing_area wing_span t wing_thickness_to_chord_root wing_thickness_to_chord_tip fuel_wing_fuel_fraction wing_folding_area strut_y) (J_fuel_wing_volume_geometric_max__wing_taper_ratio wing_area wing_span wing_taper_ratio wing_thickness_to_chord_root wing_thickness_to_chord_tip fuel_wing_fuel_fraction wing_folding_area strut_y) wing_taper_ratio := by
  have e0 : ∀ x : ℝ, 0 < x → x ^ ((-(1 / 2)) : ℝ) = x ^ ((1 / 2) : ℝ) / x ^ 1 := fun x hx => rpow_down hx 1 (by norm_num)
  have e1 : ∀ x : ℝ, 0 < x → x ^ ((3 / 2) : ℝ) = x ^ ((1 / 2) : ℝ) * x ^ 1 := fun x hx => rpow_up hx 1 (by norm_num)
  simp only [out_fuel_wing_volume_geometric_max, J_fuel_wing_volume_geometric_max__wing_taper_ratio, dden_dtaperratio, num, a, dnum_dtaperratio, dnftr_dtaperratio, dfoldchord_dtaperratio, dtipchord_dtaperratio, drootchordwing_dtaperratio, den, geometric_fuel_vol, nonfolded_ar, nonfolded_taper_ratio, fold_chord, tip_chord, root_chord_wing, nonfolded_wing_area, tc_ratio_mean_folded, tc_ratio_fold]
  (apply hasDerivAt_of_eq; on_goal 1 => (repeat' comp_step))
  all_goals try comp_side
  all_goals try simp (disch := first | assumption | positivity) only [e0, e1, div_mul_eq_div_div, div_half, inv_half]
  all_goals try simp only [mul_zero, zero_mul, add_zero, zero_add, sub_zero, zero_sub, mul_one, one_mul]
  all_goals try push_cast
  all_goals comp_eq

theorem d_fuel_wing_volume_geometric_max__wing_thickness_to_chord_root (wing_area wing_span
    wing_taper_ratio wing_thickness_to_chord_root wing_thickness_to_chord_tip
    fuel_wing_fuel_fraction wing_folding_area strut_y : ℝ) (h0 : 0 < wing_span) (h1 : 0 <
    wing_area - wing_folding_area) (h2 : 0 < wing_taper_ratio) (h3 : 0 < wing_area) (h4 :
    wing_area - wing_folding_area ≠ 0) (h5 : 0 < strut_y) (h6 : 0 < ((2 * wing_area) / (wing_span
    * (1 + wing_taper_ratio))) + ((strut_y * ((wing_taper_ratio * ((2 * wing_area) / (wing_span *
    (1 + wing_taper_ratio)))) - ((2 * wing_area) / (wing_span * (1 + wing_taper_ratio))))) /
    (wing_span / 2))) :
    HasDerivAt (fun t => out_fuel_wing_volume_geometric_max wing_area wing_span wing_taper_ratio t wing_thickness_to_chord_tip fuel_wing_fuel_fraction wing_folding_area strut_y) (J_fuel_wing_volume_geometric_max__wing_thickness_to_chord_root wing_area wing_span wing_taper_ratio fuel_wing_fuel_fraction wing_folding_area strut_y) wing_thickness_to_chord_root := by
  have e0 : ∀ x : ℝ, 0 < x → x ^ ((3 / 2) : ℝ) = x ^ ((1 / 2) : ℝ) * x ^ 1 := fun x hx => rpow_up hx 1 (by norm_num)
  simp only [out_fuel_wing_volume_geometric_max, J_fuel_wing_volume_geometric_max__wing_thickness_to_chord_root, dtc_ratio_rootmeanfolded_dtc_ratio_root, dtc_ratio_rootatiofold_dtc_ratio_root, geometric_fuel_vol, nonfolded_ar, nonfolded_taper_ratio, fold_chord, tip_chord, root_chord_wing, nonfolded_wing_area, tc_ratio_mean_folded, tc_ratio_fold]
  (apply hasDerivAt_of_eq; on_goal 1 => (repeat' comp_step))
  all_goals try comp_side
  all_goals try simp (disch := first | assumption | positivity) only [e0, div_mul_eq_div_div, div_half, inv_half]
  all_goals try simp only [mul_zero, zero_mul, add_zero, zero_add, sub_zero, zero_sub, mul_one, one_mul]
  all_goals try push_cast
  all_goals comp_eq

theorem d_fuel_wing_volume_geometric_max__wing_thickness_to_chord_tip (wing_area wing_span
    wing_taper_ratio wing_thickness_to_chord_root wing_thickness_to_chord_tip
    fuel_wing_fuel_fraction wing_folding_area strut_y : ℝ) (h0 : 0 < wing_span) (h1 : 0 <
    wing_area - wing_folding_area) (h2 : 0 < wing_taper_ratio) (h3 : 0 < wing_area) (h4 :
    wing_area - wing_folding_area ≠ 0) (h5 : 0 < strut_y) (h6 : 0 < ((2 * wing_area) / (wing_span
    * (1 + wing_taper_ratio))) + ((strut_y * ((wing_taper_ratio * ((2 * wing_area) / (wing_span *
    (1 + wing_taper_ratio)))) - ((2 * wing_area) / (wing_span * (1 + wing_taper_ratio))))) /
    (wing_span / 2))) :
    HasDerivAt (fun t => out_fuel_wing_volume_geometric_max wing_area wing_span wing_taper_ratio wing_thickness_to_chord_root t fuel_wing_fuel_fraction wing_folding_area strut_y) (J_fuel_wing_volume_geometric_max__wing_thickness_to_chord_tip wing_area wing_span wing_taper_ratio fuel_wing_fuel_fraction wing_folding_area strut_y) wing_thickness_to_chord_tip := by
  have e0 : ∀ x : ℝ, 0 < x → x ^ ((3 / 2) : ℝ) = x ^ ((1 / 2) : ℝ) * x ^ 1 := fun x hx => rpow_up hx 1 (by norm_num)
  simp only [out_fuel_wing_volume_geometric_max, J_fuel_wing_volume_geometric_max__wing_thickness_to_chord_tip, dtc_ratio_rootmeanfolded_dtc_ratio_tip, dtc_ratio_rootatiofold_dtc_ratio_tip, geometric_fuel_vol, nonfolded_ar, nonfolded_taper_ratio, fold_chord, tip_chord, root_chord_wing, nonfolded_wing_area, tc_ratio_mean_folded, tc_ratio_fold]
  (apply hasDerivAt_of_eq; on_goal 1 => (repeat' comp_step))
  all_goals try comp_side
  all_goals try simp (disch := first | assumption | positivity) only [e0, div_mul_eq_div_div, div_half, inv_half]
  all_goals try simp only [mul_zero, zero_mul, add_zero, zero_add, sub_zero, zero_sub, mul_one, one_mul]
  all_goals try push_cast
  all_goals comp_eq

theorem d_fuel_wing_volume_geometric_max__fuel_wing_fuel_fraction (wing_area wing_span
    wing_taper_ratio wing_thickness_to_chord_root wing_thickness_to_chord_tip
    fuel_wing_fuel_fraction wing_folding_area strut_y : ℝ) (h0 : 0 < wing_span) (h1 : 0 <
    wing_area - wing_folding_area) (h2 : 0 < wing_taper_ratio) (h3 : 0 < wing_area) (h4 :
    wing_area - wing_folding_area ≠ 0) (h5 : 0 < strut_y) (h6 : 0 < ((2 * wing_area) / (wing_span
    * (1 + wing_taper_ratio))) + ((strut_y * ((wing_taper_ratio * ((2 * wing_area) / (wing_span *
    (1 + wing_taper_ratio)))) - ((2 * wing_area) / (wing_span * (1 + wing_taper_ratio))))) /
    (wing_span / 2))) :
    HasDerivAt (fun t => out_fuel_wing_volume_geometric_max wing_area wing_span wing_taper_ratio wing_thickness_to_chord_root wing_thickness_to_chord_tip t wing_folding_area strut_y) (J_fuel_wing_volume_geometric_max__fuel_wing_fuel_fraction wing_area wing_span wing_taper_ratio wing_thickness_to_chord_root wing_thickness_to_chord_tip wing_folding_area strut_y) fuel_wing_fuel_fraction := by
  have e0 : ∀ x : ℝ, 0 < x → x ^ ((3 / 2) : ℝ) = x ^ ((1 / 2) : ℝ) * x ^ 1 := fun x hx => rpow_up hx 1 (by norm_num)
  simp only [out_fuel_wing_volume_geometric_max, J_fuel_wing_volume_geometric_max__fuel_wing_fuel_fraction, geometric_fuel_vol, nonfolded_ar, nonfolded_taper_ratio, fold_chord, tip_chord, root_chord_wing, nonfolded_wing_area, tc_ratio_mean_folded, tc_ratio_fold]
  (apply hasDerivAt_of_eq; on_goal 1 => (repeat' comp_step))
  all_goals try comp_side
  all_goals try simp (disch := first | assumption | positivity) only [e0, div_mul_eq_div_div, div_half, inv_half]
  all_goals try simp only [mul_zero, zero_mul, add_zero, zero_add, sub_zero, zero_sub, mul_one, one_mul]
  all_goals try push_cast
  all_goals comp_eq

theorem d_fuel_wing_volume_geometric_max__wing_folding_area (wing_area wing_span wing_taper_ratio
    wing_thickness_to_chord_root wing_thickness_to_chord_tip fuel_wing_fuel_fraction
    wing_folding_area strut_y : ℝ) (h0 : 0 < wing_span) (h1 : 0 < wing_area - wing_folding_area)
    (h2 : 0 < wing_taper_ratio) (h3 : 0 < wing_area) (h4 : wing_area - wing_folding_area ≠ 0) (h5
    : 0 < strut_y) (h6 : 0 < ((2 * wing_area) / (wing_span * (1 + wing_taper_ratio))) + ((strut_y
    * ((wing_taper_ratio * ((2 * wing_area) / (wing_span * (1 + wing_taper_ratio)))) - ((2 *
    wing_area) / (wing_span * (1 + wing_taper_ratio))))) / (wing_span / 2))) :
    HasDerivAt (fun t => out_fuel_wing_volume_geometric_max wing_area wing_span wing_taper_ratio wing_thickness_to_chord_root wing_thickness_to_chord_tip fuel_wing_fuel_fraction t strut_y) (J_fuel_wing_volume_geometric_max__wing_folding_area wing_area wing_span wing_taper_ratio wing_thickness_to_chord_root wing_thickness_to_chord_tip fuel_wing_fuel_fraction wing_folding_area strut_y) wing_folding_area := by
  have hf6 : 0 < (root_chord_wing wing_area wing_span wing_taper_ratio) + ((strut_y * ((tip_chord wing_area wing_span wing_taper_ratio) - (root_chord_wing wing_area wing_span wing_taper_ratio))) / (wing_span / 2)) := by simp only [dden_dwingfoldarea, dnfar_dwingfoldarea, num, a, dnum_dwingfoldarea, tc_ratio_mean_folded, tc_ratio_fold, den, nonfolded_taper_ratio, fold_chord, tip_chord, root_chord_wing, nonfolded_ar, nonfolded_wing_area, geometric_fuel_vol]; exact h6
  have hp0 : root_chord_wing wing_area wing_span wing_taper_ratio ≠ 0 := by simp only [dden_dwingfoldarea, dnfar_dwingfoldarea, num, a, dnum_dwingfoldarea, tc_ratio_mean_folded, tc_ratio_fold, den, nonfolded_taper_ratio, fold_chord, tip_chord, root_chord_wing, nonfolded_ar, nonfolded_wing_area, geometric_fuel_vol]; comp_side
  have hp1 : nonfolded_wing_area wing_area wing_folding_area ≠ 0 := by simp only [dden_dwingfoldarea, dnfar_dwingfoldarea, num, a, dnum_dwingfoldarea, tc_ratio_mean_folded, tc_ratio_fold, den, nonfolded_taper_ratio, fold_chord, tip_chord, root_chord_wing, nonfolded_ar, nonfolded_wing_area, geometric_fuel_vol]; comp_side
  have hp2 : 0 < nonfolded_wing_area wing_area wing_folding_area := by simp only [dden_dwingfoldarea, dnfar_dwingfoldarea, num, a, dnum_dwingfoldarea, tc_ratio_mean_folded, tc_ratio_fold, den, nonfolded_taper_ratio, fold_chord, tip_chord, root_chord_wing, nonfolded_ar, nonfolded_wing_area, geometric_fuel_vol]; comp_side
  have hp3 : 0 < nonfolded_ar wing_area wing_folding_area strut_y := by simp only [dden_dwingfoldarea, dnfar_dwingfoldarea, num, a, dnum_dwingfoldarea, tc_ratio_mean_folded, tc_ratio_fold, den, nonfolded_taper_ratio, fold_chord, tip_chord, root_chord_wing, nonfolded_ar, nonfolded_wing_area, geometric_fuel_vol]; comp_side
  have hp4 : 0 < nonfolded_taper_ratio wing_area wing_span wing_taper_ratio strut_y := by simp only [dden_dwingfoldarea, dnfar_dwingfoldarea, num, a, dnum_dwingfoldarea, tc_ratio_mean_folded, tc_ratio_fold, den, nonfolded_taper_ratio, fold_chord, tip_chord, root_chord_wing, nonfolded_ar, nonfolded_wing_area, geometric_fuel_vol]; comp_side
  have hp5 : den wing_area wing_span wing_taper_ratio wing_folding_area strut_y ≠ 0 := by simp only [dden_dwingfoldarea, dnfar_dwingfoldarea, num, a, dnum_dwingfoldarea, tc_ratio_mean_folded, tc_ratio_fold, den, nonfolded_taper_ratio, fold_chord, tip_chord, root_chord_wing, nonfolded_ar, nonfolded_wing_area, geometric_fuel_vol]; comp_side
  have e0 : ∀ x : ℝ, 0 < x → x ^ ((-(1 / 2)) : ℝ) = x ^ ((1 / 2) : ℝ) / x ^ 1 := fun x hx => rpow_down hx 1 (by norm_num)
  have e1 : ∀ x : ℝ, 0 < x → x ^ ((3 / 2) : ℝ) = x ^ ((1 / 2) : ℝ) * x ^ 1 := fun x hx => rpow_up hx 1 (by norm_num)
  obtain ⟨D_nonfolded_wing_area, hD_nonfolded_wing_area, k_nonfolded_wing_area⟩ : ∃ D : ℝ, D = -1 ∧
      HasDerivAt (fun t => nonfolded_wing_area wing_area t) D wing_folding_area := by
    refine ⟨_, rfl, ?_⟩
    simp only [nonfolded_wing_area]
    apply hasDerivAt_of_eq; on_goal 1 => (repeat' comp_step)
    all_goals try first | comp_side | (apply HasDerivAt.continuousAt; (repeat' comp_step); all_goals comp_side)
    all_goals try simp (disch := first | assumption | positivity) only [e0, e1, div_mul_eq_div_div, div_half, inv_half]
    all_goals try simp only [mul_zero, zero_mul, add_zero, zero_add, sub_zero, zero_sub, mul_one, one_mul, sub_self]
    all_goals try push_cast
    all_goals comp_eq
  obtain ⟨D_nonfolded_ar, hD_nonfolded_ar, k_nonfolded_ar⟩ : ∃ D : ℝ, D = -(((4 * (strut_y ^ 2)) * D_nonfolded_wing_area) / ((nonfolded_wing_area wing_area wing_folding_area) ^ 2)) ∧
      HasDerivAt (fun t => nonfolded_ar wing_area t strut_y) D wing_folding_area := by
    refine ⟨_, rfl, ?_⟩
    simp only [nonfolded_ar]
    apply hasDerivAt_of_eq; on_goal 1 => (repeat' comp_step)
    all_goals try first | comp_side | (apply HasDerivAt.continuousAt; (repeat' comp_step); all_goals comp_side)
    all_goals try simp (disch := first | assumption | positivity) only [e0, e1, div_mul_eq_div_div, div_half, inv_half]
    all_goals try simp only [mul_zero, zero_mul, add_zero, zero_add, sub_zero, zero_sub, mul_one, one_mul, sub_self]
    all_goals try push_cast
    all_goals comp_eq
  obtain ⟨D_geometric_fuel_vol, hD_geometric_fuel_vol, k_geometric_fuel_vol⟩ : ∃ D : ℝ, D = ((((((fuel_wing_fuel_fraction * (888889 / 1000000)) * (tc_ratio_mean_folded wing_span wing_thickness_to_chord_root wing_thickness_to_chord_tip strut_y)) * (((3 / 2) * ((nonfolded_wing_area wing_area wing_folding_area) ^ ((1 / 2) : ℝ))) * D_nonfolded_wing_area)) * ((2 * (nonfolded_taper_ratio wing_area wing_span wing_taper_ratio strut_y)) + 1)) * (((nonfolded_ar wing_area wing_folding_area strut_y) ^ ((1 / 2) : ℝ)) * (((nonfolded_taper_ratio wing_area wing_span wing_taper_ratio strut_y) + 1) ^ 2))) - (((((fuel_wing_fuel_fraction * (888889 / 1000000)) * (tc_ratio_mean_folded wing_span wing_thickness_to_chord_root wing_thickness_to_chord_tip strut_y)) * ((nonfolded_wing_area wing_area wing_folding_area) ^ ((3 / 2) : ℝ))) * ((2 * (nonfolded_taper_ratio wing_area wing_span wing_taper_ratio strut_y)) + 1)) * ((((1 / 2) * ((nonfolded_ar wing_area wing_folding_area strut_y) ^ ((-(1 / 2)) : ℝ))) * D_nonfolded_ar) * (((nonfolded_taper_ratio wing_area wing_span wing_taper_ratio strut_y) + 1) ^ 2)))) / ((((nonfolded_ar wing_area wing_folding_area strut_y) ^ ((1 / 2) : ℝ)) * (((nonfolded_taper_ratio wing_area wing_span wing_taper_ratio strut_y) + 1) ^ 2)) ^ 2) ∧
      HasDerivAt (fun t => geometric_fuel_vol wing_area wing_span wing_taper_ratio wing_thickness_to_chord_root wing_thickness_to_chord_tip fuel_wing_fuel_fraction t strut_y) D wing_folding_area := by
    refine ⟨_, rfl, ?_⟩
    simp only [geometric_fuel_vol]
    apply hasDerivAt_of_eq; on_goal 1 => (repeat' comp_step)
    all_goals try first | comp_side | (apply HasDerivAt.continuousAt; (repeat' comp_step); all_goals comp_side)
    all_goals try simp (disch := first | assumption | positivity) only [e0, e1, div_mul_eq_div_div, div_half, inv_half]
    all_goals try simp only [mul_zero, zero_mul, add_zero, zero_add, sub_zero, zero_sub, mul_one, one_mul, sub_self]
    all_goals try push_cast
    all_goals comp_eq
  try simp only [out_fuel_wing_volume_geometric_max, J_fuel_wing_volume_geometric_max__wing_folding_area, dden_dwingfoldarea, dnfar_dwingfoldarea, num, a, dnum_dwingfoldarea, den]
  all_goals (apply hasDerivAt_of_eq; on_goal 1 => (repeat' comp_step))
  all_goals try first | comp_side | (apply HasDerivAt.continuousAt; (repeat' comp_step); all_goals comp_side)
  all_goals try simp only [hD_nonfolded_wing_area, hD_nonfolded_ar, hD_geometric_fuel_vol]
  all_goals try simp (disch := first | assumption | positivity) only [e0, e1, div_mul_eq_div_div, div_half, inv_half]
  all_goals try simp only [mul_zero, zero_mul, add_zero, zero_add, sub_zero, zero_sub, mul_one, one_mul, sub_self]
  all_goals try push_cast
  all_goals comp_eq

theorem d_fuel_wing_volume_geometric_max__strut_y (wing_area wing_span wing_taper_ratio
    wing_thickness_to_chord_root wing_thickness_to_chord_tip fuel_wing_fuel_fraction
    wing_folding_area strut_y : ℝ) (h0 : 0 < wing_span) (h1 : 0 < wing_area - wing_folding_area)
    (h2 : 0 < wing_taper_ratio) (h3 : 0 < wing_area) (h4 : wing_area - wing_folding_area ≠ 0) (h5
    : 0 < strut_y) (h6 : 0 < ((2 * wing_area) / (wing_span * (1 + wing_taper_ratio))) + ((strut_y
    * ((wing_taper_ratio * ((2 * wing_area) / (wing_span * (1 + wing_taper_ratio)))) - ((2 *
    wing_area) / (wing_span * (1 + wing_taper_ratio))))) / (wing_span / 2))) :
    HasDerivAt (fun t => out_fuel_wing_volume_geometric_max wing_area wing_span wing_taper_ratio wing_thickness_to_chord_root wing_thickness_to_chord_tip fuel_wing_fuel_fraction wing_folding_area t) (J_fuel_wing_volume_geometric_max__strut_y wing_area wing_span wing_taper_ratio wing_thickness_to_chord_root wing_thickness_to_chord_tip fuel_wing_fuel_fraction wing_folding_area strut_y) strut_y := by
  have e0 : ∀ x : ℝ, 0 < x → x ^ ((-(1 / 2)) : ℝ) = x ^ ((1 / 2) : ℝ) / x ^ 1 := fun x hx => rpow_down hx 1 (by norm_num)
  have e1 : ∀ x : ℝ, 0 < x → x ^ ((3 / 2) : ℝ) = x ^ ((1 / 2) : ℝ) * x ^ 1 := fun x hx => rpow_up hx 1 (by norm_num)
  simp only [out_fuel_wing_volume_geometric_max, J_fuel_wing_volume_geometric_max__strut_y, dden_dy, dnfar_dy, num, dnum_dy, da_dy, dnftr_dy, dfoldchord_dy, a, dtc_ratio_rootmeanfolded_dy, dtc_ratio_rootatiofold_dy, den, geometric_fuel_vol, nonfolded_ar, nonfolded_taper_ratio, fold_chord, tip_chord, root_chord_wing, nonfolded_wing_area, tc_ratio_mean_folded, tc_ratio_fold]
  (apply hasDerivAt_of_eq; on_goal 1 => (repeat' comp_step))
  all_goals try comp_side
  all_goals try simp (disch := first | assumption | positivity) only [e0, e1, div_mul_eq_div_div, div_half, inv_half]
  all_goals try simp only [mul_zero, zero_mul, add_zero, zero_add, sub_zero, zero_sub, mul_one, one_mul]
  all_goals try push_cast
  all_goals comp_eq

/-- Every partial derivative set by `WingFoldVolume` is the derivative of its output. -/
theorem partials (wing_area wing_span wing_taper_ratio wing_thickness_to_chord_root
    wing_thickness_to_chord_tip fuel_wing_fuel_fraction wing_folding_area strut_y : ℝ) (h0 : 0 <
    wing_span) (h1 : 0 < wing_taper_ratio) (h2 : 0 < wing_area) (h3 : wing_area -
    wing_folding_area ≠ 0) (h4 : 0 < wing_area - wing_folding_area) (h5 : 0 < strut_y) (h6 : 0 <
    ((2 * wing_area) / (wing_span * (1 + wing_taper_ratio))) + ((strut_y * ((wing_taper_ratio *
    ((2 * wing_area) / (wing_span * (1 + wing_taper_ratio)))) - ((2 * wing_area) / (wing_span * (1
    + wing_taper_ratio))))) / (wing_span / 2))) :
    HasDerivAt (fun t => out_nonfolded_taper_ratio t wing_span wing_taper_ratio strut_y)
      (J_nonfolded_taper_ratio__wing_area wing_area wing_span wing_taper_ratio strut_y) wing_area ∧
    HasDerivAt (fun t => out_nonfolded_taper_ratio wing_area t wing_taper_ratio strut_y)
      (J_nonfolded_taper_ratio__wing_span wing_area wing_span wing_taper_ratio strut_y) wing_span ∧
    HasDerivAt (fun t => out_nonfolded_taper_ratio wing_area wing_span t strut_y)
      (J_nonfolded_taper_ratio__wing_taper_ratio wing_area wing_span wing_taper_ratio strut_y)
      wing_taper_ratio ∧
    HasDerivAt (fun t => out_nonfolded_taper_ratio wing_area wing_span wing_taper_ratio t)
      (J_nonfolded_taper_ratio__strut_y wing_area wing_span wing_taper_ratio) strut_y ∧
    HasDerivAt (fun t => out_nonfolded_wing_area t wing_folding_area)
      (J_nonfolded_wing_area__wing_area) wing_area ∧
    HasDerivAt (fun t => out_nonfolded_wing_area wing_area t)
      (J_nonfolded_wing_area__wing_folding_area) wing_folding_area ∧
    HasDerivAt (fun t => out_tc_ratio_mean_folded t wing_thickness_to_chord_root
      wing_thickness_to_chord_tip strut_y) (J_tc_ratio_mean_folded__wing_span wing_span
      wing_thickness_to_chord_root wing_thickness_to_chord_tip strut_y) wing_span ∧
    HasDerivAt (fun t => out_tc_ratio_mean_folded wing_span t wing_thickness_to_chord_tip strut_y)
      (J_tc_ratio_mean_folded__wing_thickness_to_chord_root wing_span strut_y)
      wing_thickness_to_chord_root ∧
    HasDerivAt (fun t => out_tc_ratio_mean_folded wing_span wing_thickness_to_chord_root t strut_y)
      (J_tc_ratio_mean_folded__wing_thickness_to_chord_tip wing_span strut_y)
      wing_thickness_to_chord_tip ∧
    HasDerivAt (fun t => out_tc_ratio_mean_folded wing_span wing_thickness_to_chord_root
      wing_thickness_to_chord_tip t) (J_tc_ratio_mean_folded__strut_y wing_span
      wing_thickness_to_chord_root wing_thickness_to_chord_tip) strut_y ∧
    HasDerivAt (fun t => out_nonfolded_ar t wing_folding_area strut_y) (J_nonfolded_ar__wing_area
      wing_area wing_folding_area strut_y) wing_area ∧
    HasDerivAt (fun t => out_nonfolded_ar wing_area wing_folding_area strut_y)
      (J_nonfolded_ar__wing_span wing_area wing_folding_area strut_y) wing_span ∧
    HasDerivAt (fun t => out_nonfolded_ar wing_area t strut_y) (J_nonfolded_ar__wing_folding_area
      wing_area wing_folding_area strut_y) wing_folding_area ∧
    HasDerivAt (fun t => out_nonfolded_ar wing_area wing_folding_area t) (J_nonfolded_ar__strut_y
      wing_area wing_folding_area strut_y) strut_y ∧
    HasDerivAt (fun t => out_fuel_wing_volume_geometric_max t wing_span wing_taper_ratio
      wing_thickness_to_chord_root wing_thickness_to_chord_tip fuel_wing_fuel_fraction
      wing_folding_area strut_y) (J_fuel_wing_volume_geometric_max__wing_area wing_area wing_span
      wing_taper_ratio wing_thickness_to_chord_root wing_thickness_to_chord_tip
      fuel_wing_fuel_fraction wing_folding_area strut_y) wing_area ∧
    HasDerivAt (fun t => out_fuel_wing_volume_geometric_max wing_area t wing_taper_ratio
      wing_thickness_to_chord_root wing_thickness_to_chord_tip fuel_wing_fuel_fraction
      wing_folding_area strut_y) (J_fuel_wing_volume_geometric_max__wing_span wing_area wing_span
      wing_taper_ratio wing_thickness_to_chord_root wing_thickness_to_chord_tip
      fuel_wing_fuel_fraction wing_folding_area strut_y) wing_span ∧
    HasDerivAt (fun t => out_fuel_wing_volume_geometric_max wing_area wing_span t
      wing_thickness_to_chord_root wing_thickness_to_chord_tip fuel_wing_fuel_fraction
      wing_folding_area strut_y) (J_fuel_wing_volume_geometric_max__wing_taper_ratio wing_area
      wing_span wing_taper_ratio wing_thickness_to_chord_root wing_thickness_to_chord_tip
      fuel_wing_fuel_fraction wing_folding_area strut_y) wing_taper_ratio ∧
    HasDerivAt (fun t => out_fuel_wing_volume_geometric_max wing_area wing_span wing_taper_ratio t
      wing_thickness_to_chord_tip fuel_wing_fuel_fraction wing_folding_area strut_y)
      (J_fuel_wing_volume_geometric_max__wing_thickness_to_chord_root wing_area wing_span
      wing_taper_ratio fuel_wing_fuel_fraction wing_folding_area strut_y)
      wing_thickness_to_chord_root ∧
    HasDerivAt (fun t => out_fuel_wing_volume_geometric_max wing_area wing_span wing_taper_ratio
      wing_thickness_to_chord_root t fuel_wing_fuel_fraction wing_folding_area strut_y)
      (J_fuel_wing_volume_geometric_max__wing_thickness_to_chord_tip wing_area wing_span
      wing_taper_ratio fuel_wing_fuel_fraction wing_folding_area strut_y)
      wing_thickness_to_chord_tip ∧
    HasDerivAt (fun t => out_fuel_wing_volume_geometric_max wing_area wing_span wing_taper_ratio
      wing_thickness_to_chord_root wing_thickness_to_chord_tip t wing_folding_area strut_y)
      (J_fuel_wing_volume_geometric_max__fuel_wing_fuel_fraction wing_area wing_span
      wing_taper_ratio wing_thickness_to_chord_root wing_thickness_to_chord_tip wing_folding_area
      strut_y) fuel_wing_fuel_fraction ∧
    HasDerivAt (fun t => out_fuel_wing_volume_geometric_max wing_area wing_span wing_taper_ratio
      wing_thickness_to_chord_root wing_thickness_to_chord_tip fuel_wing_fuel_fraction t strut_y)
      (J_fuel_wing_volume_geometric_max__wing_folding_area wing_area wing_span wing_taper_ratio
      wing_thickness_to_chord_root wing_thickness_to_chord_tip fuel_wing_fuel_fraction
      wing_folding_area strut_y) wing_folding_area ∧
    HasDerivAt (fun t => out_fuel_wing_volume_geometric_max wing_area wing_span wing_taper_ratio
      wing_thickness_to_chord_root wing_thickness_to_chord_tip fuel_wing_fuel_fraction
      wing_folding_area t) (J_fuel_wing_volume_geometric_max__strut_y wing_area wing_span
      wing_taper_ratio wing_thickness_to_chord_root wing_thickness_to_chord_tip
      fuel_wing_fuel_fraction wing_folding_area strut_y) strut_y :=
  ⟨d_nonfolded_taper_ratio__wing_area _ _ _ _ h0 h1 h2, d_nonfolded_taper_ratio__wing_span _ _ _ _
    h0 h1 h2, d_nonfolded_taper_ratio__wing_taper_ratio _ _ _ _ h0 h1 h2,
    d_nonfolded_taper_ratio__strut_y _ _ _ _ h0 h1 h2, d_nonfolded_wing_area__wing_area _ _,
    d_nonfolded_wing_area__wing_folding_area _ _, d_tc_ratio_mean_folded__wing_span _ _ _ _ h0,
    d_tc_ratio_mean_folded__wing_thickness_to_chord_root _ _ _ _ h0,
    d_tc_ratio_mean_folded__wing_thickness_to_chord_tip _ _ _ _ h0,
    d_tc_ratio_mean_folded__strut_y _ _ _ _ h0, d_nonfolded_ar__wing_area _ _ _ h3,
    d_nonfolded_ar__wing_span _ _ _ _ h3, d_nonfolded_ar__wing_folding_area _ _ _ h3,
    d_nonfolded_ar__strut_y _ _ _ h3, d_fuel_wing_volume_geometric_max__wing_area _ _ _ _ _ _ _ _
    h0 h4 h1 h2 h3 h5 h6, d_fuel_wing_volume_geometric_max__wing_span _ _ _ _ _ _ _ _ h0 h4 h1 h2
    h3 h5 h6, d_fuel_wing_volume_geometric_max__wing_taper_ratio _ _ _ _ _ _ _ _ h0 h4 h1 h2 h3 h5
    h6, d_fuel_wing_volume_geometric_max__wing_thickness_to_chord_root _ _ _ _ _ _ _ _ h0 h4 h1 h2
    h3 h5 h6, d_fuel_wing_volume_geometric_max__wing_thickness_to_chord_tip _ _ _ _ _ _ _ _ h0 h4
    h1 h2 h3 h5 h6, d_fuel_wing_volume_geometric_max__fuel_wing_fuel_fraction _ _ _ _ _ _ _ _ h0
    h4 h1 h2 h3 h5 h6, d_fuel_wing_volume_geometric_max__wing_folding_area _ _ _ _ _ _ _ _ h0 h4
    h1 h2 h3 h5 h6, d_fuel_wing_volume_geometric_max__strut_y _ _ _ _ _ _ _ _ h0 h4 h1 h2 h3 h5
    h6⟩

example : ∃ wing_area wing_span wing_taper_ratio wing_thickness_to_chord_root
      wing_thickness_to_chord_tip fuel_wing_fuel_fraction wing_folding_area strut_y : ℝ,
      0 < wing_span ∧
      0 < wing_taper_ratio ∧
      0 < wing_area ∧
      wing_area - wing_folding_area ≠ 0 ∧
      0 < wing_area - wing_folding_area ∧
      0 < strut_y ∧
      0 < ((2 * wing_area) / (wing_span * (1 + wing_taper_ratio))) + ((strut_y * ((wing_taper_ratio *
        ((2 * wing_area) / (wing_span * (1 + wing_taper_ratio)))) - ((2 * wing_area) / (wing_span
        * (1 + wing_taper_ratio))))) / (wing_span / 2)) :=
  ⟨1, 1, 1, 0, 0, 0, 0, 1, by comp_example, by comp_example, by comp_example, by comp_example, by
    comp_example, by comp_example, by comp_example⟩

end Verif.Comp.GeometryGaspBasedWing.WingFoldVolume_no_wingchoosefoldlocation

