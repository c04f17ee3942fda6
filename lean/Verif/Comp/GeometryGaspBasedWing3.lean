import Verif.Lemmas.CompDeriv

/-! # Partial derivatives of the components of `aviary/subsystems/geometry/gasp_based/wing.py`

One node of a vector component is modelled over the real numbers.  Each option that selects a
branch is fixed, one namespace per choice.  `out_x` is the output `x`, `J_x__y` the entry that
`compute_partials` (or `declare_partials` with `val`) assigns, `d_x__y` the proof that the entry is
the derivative.  Inputs an output does not take as argument have no influence on it. -/

set_option linter.all false

namespace Verif.Comp.GeometryGaspBasedWing.WingParameters
open Real

/-- aviary/subsystems/geometry/gasp_based/wing.py:142 -/
noncomputable def center_chord (wing_area wing_span wing_taper_ratio : ℝ) : ℝ :=
  ((2 * wing_area) / wing_span) / (1 + wing_taper_ratio)

/-- aviary/subsystems/geometry/gasp_based/wing.py:143 -/
noncomputable def avg_chord (wing_area wing_span wing_taper_ratio : ℝ) : ℝ :=
  ((2 * (center_chord wing_area wing_span wing_taper_ratio)) / 3) * ((1 + wing_taper_ratio) -
    (wing_taper_ratio / (1 + wing_taper_ratio)))

/-- aviary/subsystems/geometry/gasp_based/wing.py:146 -/
noncomputable def tan_sweep_le (wing_aspect_ratio wing_taper_ratio wing_sweep : ℝ) : ℝ :=
  (((1 - wing_taper_ratio) / (1 + wing_taper_ratio)) / wing_aspect_ratio) + (tan ((wing_sweep *
    π) / 180))

/-- aviary/subsystems/geometry/gasp_based/wing.py:150 -/
noncomputable def tan_sweep_te (wing_aspect_ratio wing_taper_ratio wing_sweep : ℝ) : ℝ :=
  (((3 * (wing_taper_ratio - 1)) / (1 + wing_taper_ratio)) / wing_aspect_ratio) + (tan
    (wing_sweep * (π / 180)))

/-- aviary/subsystems/geometry/gasp_based/wing.py:155 -/
noncomputable def fhp (wing_area wing_span wing_taper_ratio wing_thickness_to_chord_root fuselage_avg_diameter : ℝ) : ℝ :=
  (2 * (((wing_thickness_to_chord_root * (center_chord wing_area wing_span wing_taper_ratio)) *
    (fuselage_avg_diameter - (wing_thickness_to_chord_root * (center_chord wing_area wing_span
    wing_taper_ratio)))) ^ ((1 / 2) : ℝ))) + (2 / 5)

/-- aviary/subsystems/geometry/gasp_based/wing.py:160 -/
noncomputable def hp (wing_area wing_span wing_aspect_ratio wing_taper_ratio wing_sweep wing_thickness_to_chord_root fuselage_avg_diameter : ℝ) : ℝ :=
  ((fhp wing_area wing_span wing_taper_ratio wing_thickness_to_chord_root fuselage_avg_diameter)
    * (tan_sweep_le wing_aspect_ratio wing_taper_ratio wing_sweep)) / 2

/-- aviary/subsystems/geometry/gasp_based/wing.py:161 -/
noncomputable def root_chord (wing_area wing_span wing_aspect_ratio wing_taper_ratio wing_sweep wing_thickness_to_chord_root fuselage_avg_diameter : ℝ) : ℝ :=
  ((center_chord wing_area wing_span wing_taper_ratio) - (hp wing_area wing_span
    wing_aspect_ratio wing_taper_ratio wing_sweep wing_thickness_to_chord_root
    fuselage_avg_diameter)) + (((fhp wing_area wing_span wing_taper_ratio
    wing_thickness_to_chord_root fuselage_avg_diameter) * (tan_sweep_te wing_aspect_ratio
    wing_taper_ratio wing_sweep)) / 2)

/-- aviary/subsystems/geometry/gasp_based/wing.py:162 -/
noncomputable def tc_ratio_avg (wing_span wing_taper_ratio wing_thickness_to_chord_root fuselage_avg_diameter wing_thickness_to_chord_tip : ℝ) : ℝ :=
  (((wing_thickness_to_chord_root - ((fuselage_avg_diameter / wing_span) *
    (wing_thickness_to_chord_root - wing_thickness_to_chord_tip))) * (1 -
    ((fuselage_avg_diameter / wing_span) * (1 - wing_taper_ratio)))) + (wing_taper_ratio *
    wing_thickness_to_chord_tip)) / ((1 + wing_taper_ratio) - ((fuselage_avg_diameter /
    wing_span) * (1 - wing_taper_ratio)))

/-- aviary/subsystems/geometry/gasp_based/wing.py:190 -/
noncomputable def tan_sweep_le_2 (wing_aspect_ratio wing_taper_ratio wing_sweep : ℝ) : ℝ :=
  (((1 - wing_taper_ratio) / (1 + wing_taper_ratio)) / wing_aspect_ratio) + (tan (wing_sweep *
    (π / 180)))

/-- aviary/subsystems/geometry/gasp_based/wing.py:197 -/
noncomputable def dcenterchord_dwingarea (wing_span wing_taper_ratio : ℝ) : ℝ :=
  2 / (wing_span * (1 + wing_taper_ratio))

/-- aviary/subsystems/geometry/gasp_based/wing.py:198 -/
noncomputable def dcenterchord_dwingspan (wing_area wing_span wing_taper_ratio : ℝ) : ℝ :=
  ((-2) * wing_area) / ((1 + wing_taper_ratio) * (wing_span ^ 2))

/-- aviary/subsystems/geometry/gasp_based/wing.py:199 -/
noncomputable def dcenterchord_dtaperratio (wing_area wing_span wing_taper_ratio : ℝ) : ℝ :=
  ((-2) * wing_area) / (wing_span * ((1 + wing_taper_ratio) ^ 2))

/-- aviary/subsystems/geometry/gasp_based/wing.py:200 -/
noncomputable def dfhp_dtc_ratio_rootatioroot (wing_area wing_span wing_taper_ratio wing_thickness_to_chord_root fuselage_avg_diameter : ℝ) : ℝ :=
  (((wing_thickness_to_chord_root * (center_chord wing_area wing_span wing_taper_ratio)) *
    (fuselage_avg_diameter - (wing_thickness_to_chord_root * (center_chord wing_area wing_span
    wing_taper_ratio)))) ^ ((-(1 / 2)) : ℝ)) * (((center_chord wing_area wing_span
    wing_taper_ratio) * fuselage_avg_diameter) - ((2 * wing_thickness_to_chord_root) *
    ((center_chord wing_area wing_span wing_taper_ratio) ^ 2)))

/-- aviary/subsystems/geometry/gasp_based/wing.py:203 -/
noncomputable def dfhp_dcabinwidth (wing_area wing_span wing_taper_ratio wing_thickness_to_chord_root fuselage_avg_diameter : ℝ) : ℝ :=
  ((((wing_thickness_to_chord_root * (center_chord wing_area wing_span wing_taper_ratio)) *
    (fuselage_avg_diameter - (wing_thickness_to_chord_root * (center_chord wing_area wing_span
    wing_taper_ratio)))) ^ ((-(1 / 2)) : ℝ)) * wing_thickness_to_chord_root) * (center_chord
    wing_area wing_span wing_taper_ratio)

/-- aviary/subsystems/geometry/gasp_based/wing.py:208 -/
noncomputable def dfhp_dwingarea (wing_area wing_span wing_taper_ratio wing_thickness_to_chord_root fuselage_avg_diameter : ℝ) : ℝ :=
  ((((wing_thickness_to_chord_root * (center_chord wing_area wing_span wing_taper_ratio)) *
    (fuselage_avg_diameter - (wing_thickness_to_chord_root * (center_chord wing_area wing_span
    wing_taper_ratio)))) ^ ((-(1 / 2)) : ℝ)) * ((wing_thickness_to_chord_root *
    fuselage_avg_diameter) - ((2 * (wing_thickness_to_chord_root ^ 2)) * (center_chord wing_area
    wing_span wing_taper_ratio)))) * (dcenterchord_dwingarea wing_span wing_taper_ratio)

/-- aviary/subsystems/geometry/gasp_based/wing.py:213 -/
noncomputable def dfhp_dwingspan (wing_area wing_span wing_taper_ratio wing_thickness_to_chord_root fuselage_avg_diameter : ℝ) : ℝ :=
  ((((wing_thickness_to_chord_root * (center_chord wing_area wing_span wing_taper_ratio)) *
    (fuselage_avg_diameter - (wing_thickness_to_chord_root * (center_chord wing_area wing_span
    wing_taper_ratio)))) ^ ((-(1 / 2)) : ℝ)) * ((wing_thickness_to_chord_root *
    fuselage_avg_diameter) - ((2 * (wing_thickness_to_chord_root ^ 2)) * (center_chord wing_area
    wing_span wing_taper_ratio)))) * (dcenterchord_dwingspan wing_area wing_span
    wing_taper_ratio)

/-- aviary/subsystems/geometry/gasp_based/wing.py:218 -/
noncomputable def dfhp_dtaperratio (wing_area wing_span wing_taper_ratio wing_thickness_to_chord_root fuselage_avg_diameter : ℝ) : ℝ :=
  ((((wing_thickness_to_chord_root * (center_chord wing_area wing_span wing_taper_ratio)) *
    (fuselage_avg_diameter - (wing_thickness_to_chord_root * (center_chord wing_area wing_span
    wing_taper_ratio)))) ^ ((-(1 / 2)) : ℝ)) * ((wing_thickness_to_chord_root *
    fuselage_avg_diameter) - ((2 * (wing_thickness_to_chord_root ^ 2)) * (center_chord wing_area
    wing_span wing_taper_ratio)))) * (dcenterchord_dtaperratio wing_area wing_span
    wing_taper_ratio)

/-- aviary/subsystems/geometry/gasp_based/wing.py:224 -/
noncomputable def dtansweeple_dtaperratio (wing_aspect_ratio wing_taper_ratio : ℝ) : ℝ :=
  (((-(1 + wing_taper_ratio)) * wing_aspect_ratio) - ((1 - wing_taper_ratio) *
    wing_aspect_ratio)) / (((1 + wing_taper_ratio) ^ 2) * (wing_aspect_ratio ^ 2))

/-- aviary/subsystems/geometry/gasp_based/wing.py:227 -/
noncomputable def dtansweeple_dar (wing_aspect_ratio wing_taper_ratio : ℝ) : ℝ :=
  (-(1 - wing_taper_ratio)) / ((1 + wing_taper_ratio) * (wing_aspect_ratio ^ 2))

/-- aviary/subsystems/geometry/gasp_based/wing.py:228 -/
noncomputable def dtansweeple_dsweepc4 (wing_sweep : ℝ) : ℝ :=
  (π / 180) / ((cos (wing_sweep * (π / 180))) ^ 2)

/-- aviary/subsystems/geometry/gasp_based/wing.py:231 -/
noncomputable def dtansweepte_dtaperratio (wing_aspect_ratio wing_taper_ratio : ℝ) : ℝ :=
  (3 * (((1 + wing_taper_ratio) * wing_aspect_ratio) - ((wing_taper_ratio - 1) *
    wing_aspect_ratio))) / (((1 + wing_taper_ratio) ^ 2) * (wing_aspect_ratio ^ 2))

/-- aviary/subsystems/geometry/gasp_based/wing.py:234 -/
noncomputable def dtansweepte_dar (wing_aspect_ratio wing_taper_ratio : ℝ) : ℝ :=
  ((-3) * (wing_taper_ratio - 1)) / ((1 + wing_taper_ratio) * (wing_aspect_ratio ^ 2))

/-- aviary/subsystems/geometry/gasp_based/wing.py:236 -/
noncomputable def drootchord_dwingarea (wing_area wing_span wing_aspect_ratio wing_taper_ratio wing_sweep wing_thickness_to_chord_root fuselage_avg_diameter : ℝ) : ℝ :=
  (dcenterchord_dwingarea wing_span wing_taper_ratio) + ((dfhp_dwingarea wing_area wing_span
    wing_taper_ratio wing_thickness_to_chord_root fuselage_avg_diameter) * (((-(tan_sweep_le_2
    wing_aspect_ratio wing_taper_ratio wing_sweep)) / 2) + ((tan_sweep_te wing_aspect_ratio
    wing_taper_ratio wing_sweep) / 2)))

/-- aviary/subsystems/geometry/gasp_based/wing.py:239 -/
noncomputable def drootchord_dwingspan (wing_area wing_span wing_aspect_ratio wing_taper_ratio wing_sweep wing_thickness_to_chord_root fuselage_avg_diameter : ℝ) : ℝ :=
  (dcenterchord_dwingspan wing_area wing_span wing_taper_ratio) + ((dfhp_dwingspan wing_area
    wing_span wing_taper_ratio wing_thickness_to_chord_root fuselage_avg_diameter) *
    (((-(tan_sweep_le_2 wing_aspect_ratio wing_taper_ratio wing_sweep)) / 2) + ((tan_sweep_te
    wing_aspect_ratio wing_taper_ratio wing_sweep) / 2)))

/-- aviary/subsystems/geometry/gasp_based/wing.py:242 -/
noncomputable def drootchord_dtaperratio (wing_area wing_span wing_aspect_ratio wing_taper_ratio wing_sweep wing_thickness_to_chord_root fuselage_avg_diameter : ℝ) : ℝ :=
  ((dcenterchord_dtaperratio wing_area wing_span wing_taper_ratio) + ((dfhp_dtaperratio
    wing_area wing_span wing_taper_ratio wing_thickness_to_chord_root fuselage_avg_diameter) *
    (((-(tan_sweep_le_2 wing_aspect_ratio wing_taper_ratio wing_sweep)) / 2) + ((tan_sweep_te
    wing_aspect_ratio wing_taper_ratio wing_sweep) / 2)))) + ((fhp wing_area wing_span
    wing_taper_ratio wing_thickness_to_chord_root fuselage_avg_diameter) *
    (((-(dtansweeple_dtaperratio wing_aspect_ratio wing_taper_ratio)) / 2) +
    ((dtansweepte_dtaperratio wing_aspect_ratio wing_taper_ratio) / 2)))

/-- aviary/subsystems/geometry/gasp_based/wing.py:247 -/
noncomputable def drootchord_dtc_ratio_rootatioroot (wing_area wing_span wing_aspect_ratio wing_taper_ratio wing_sweep wing_thickness_to_chord_root fuselage_avg_diameter : ℝ) : ℝ :=
  (dfhp_dtc_ratio_rootatioroot wing_area wing_span wing_taper_ratio wing_thickness_to_chord_root
    fuselage_avg_diameter) * (((-(tan_sweep_le_2 wing_aspect_ratio wing_taper_ratio wing_sweep))
    / 2) + ((tan_sweep_te wing_aspect_ratio wing_taper_ratio wing_sweep) / 2))

/-- aviary/subsystems/geometry/gasp_based/wing.py:250 -/
noncomputable def drootchord_dcabinwidth (wing_area wing_span wing_aspect_ratio wing_taper_ratio wing_sweep wing_thickness_to_chord_root fuselage_avg_diameter : ℝ) : ℝ :=
  (dfhp_dcabinwidth wing_area wing_span wing_taper_ratio wing_thickness_to_chord_root
    fuselage_avg_diameter) * (((-(tan_sweep_le_2 wing_aspect_ratio wing_taper_ratio wing_sweep))
    / 2) + ((tan_sweep_te wing_aspect_ratio wing_taper_ratio wing_sweep) / 2))

/-- aviary/subsystems/geometry/gasp_based/wing.py:251 -/
noncomputable def drootchord_dar (wing_area wing_span wing_aspect_ratio wing_taper_ratio wing_thickness_to_chord_root fuselage_avg_diameter : ℝ) : ℝ :=
  (fhp wing_area wing_span wing_taper_ratio wing_thickness_to_chord_root fuselage_avg_diameter)
    * (((-(dtansweeple_dar wing_aspect_ratio wing_taper_ratio)) / 2) + ((dtansweepte_dar
    wing_aspect_ratio wing_taper_ratio) / 2))

/-- aviary/subsystems/geometry/gasp_based/wing.py:252 -/
noncomputable def drootchord_dsweepc4 (wing_area wing_span wing_taper_ratio wing_sweep wing_thickness_to_chord_root fuselage_avg_diameter : ℝ) : ℝ :=
  ((fhp wing_area wing_span wing_taper_ratio wing_thickness_to_chord_root fuselage_avg_diameter)
    * (1 / 2)) * ((-(dtansweeple_dsweepc4 wing_sweep)) + (dtansweeple_dsweepc4 wing_sweep))

/-- aviary/subsystems/geometry/gasp_based/wing.py:284 -/
noncomputable def a (wing_span wing_thickness_to_chord_root fuselage_avg_diameter wing_thickness_to_chord_tip : ℝ) : ℝ :=
  wing_thickness_to_chord_root - ((fuselage_avg_diameter / wing_span) *
    (wing_thickness_to_chord_root - wing_thickness_to_chord_tip))

/-- aviary/subsystems/geometry/gasp_based/wing.py:285 -/
noncomputable def b (wing_span wing_taper_ratio fuselage_avg_diameter : ℝ) : ℝ :=
  1 - ((fuselage_avg_diameter / wing_span) * (1 - wing_taper_ratio))

/-- aviary/subsystems/geometry/gasp_based/wing.py:286 -/
noncomputable def c (wing_taper_ratio wing_thickness_to_chord_tip : ℝ) : ℝ :=
  wing_taper_ratio * wing_thickness_to_chord_tip

/-- aviary/subsystems/geometry/gasp_based/wing.py:287 -/
noncomputable def d (wing_span wing_taper_ratio fuselage_avg_diameter : ℝ) : ℝ :=
  (1 + wing_taper_ratio) - ((fuselage_avg_diameter / wing_span) * (1 - wing_taper_ratio))

/-- aviary/subsystems/geometry/gasp_based/wing.py:289 -/
noncomputable def dab_dcabw (wing_span wing_taper_ratio wing_thickness_to_chord_root fuselage_avg_diameter wing_thickness_to_chord_tip : ℝ) : ℝ :=
  (((a wing_span wing_thickness_to_chord_root fuselage_avg_diameter wing_thickness_to_chord_tip)
    * (wing_taper_ratio - 1)) / wing_span) + (((b wing_span wing_taper_ratio
    fuselage_avg_diameter) * (wing_thickness_to_chord_tip - wing_thickness_to_chord_root)) /
    wing_span)

/-- aviary/subsystems/geometry/gasp_based/wing.py:290 -/
noncomputable def dd_dcabw (wing_span wing_taper_ratio : ℝ) : ℝ :=
  (wing_taper_ratio - 1) / wing_span

/-- aviary/subsystems/geometry/gasp_based/wing.py:291 -/
noncomputable def dab_dwingspan (wing_span wing_taper_ratio wing_thickness_to_chord_root fuselage_avg_diameter wing_thickness_to_chord_tip : ℝ) : ℝ :=
  ((((a wing_span wing_thickness_to_chord_root fuselage_avg_diameter
    wing_thickness_to_chord_tip) * fuselage_avg_diameter) * (1 - wing_taper_ratio)) / (wing_span
    ^ 2)) + ((((b wing_span wing_taper_ratio fuselage_avg_diameter) * fuselage_avg_diameter) *
    (wing_thickness_to_chord_root - wing_thickness_to_chord_tip)) / (wing_span ^ 2))

/-- aviary/subsystems/geometry/gasp_based/wing.py:295 -/
noncomputable def dd_dwingspan (wing_span wing_taper_ratio fuselage_avg_diameter : ℝ) : ℝ :=
  (fuselage_avg_diameter * (1 - wing_taper_ratio)) / (wing_span ^ 2)

/-- aviary/subsystems/geometry/gasp_based/wing.py:296 -/
noncomputable def dabc_dtr (wing_span wing_thickness_to_chord_root fuselage_avg_diameter wing_thickness_to_chord_tip : ℝ) : ℝ :=
  (((a wing_span wing_thickness_to_chord_root fuselage_avg_diameter wing_thickness_to_chord_tip)
    * fuselage_avg_diameter) / wing_span) + wing_thickness_to_chord_tip

/-- aviary/subsystems/geometry/gasp_based/wing.py:297 -/
noncomputable def dd_dtr (wing_span fuselage_avg_diameter : ℝ) : ℝ :=
  1 + (fuselage_avg_diameter / wing_span)

/-- aviary/subsystems/geometry/gasp_based/wing.py:317 -/
noncomputable def trp1 (wing_taper_ratio : ℝ) : ℝ := wing_taper_ratio + 1

/-- aviary/subsystems/geometry/gasp_based/wing.py:318 -/
noncomputable def swprad (wing_sweep : ℝ) : ℝ := (π * wing_sweep) / 180

/-- aviary/subsystems/geometry/gasp_based/wing.py:319 -/
noncomputable def tswprad (wing_sweep : ℝ) : ℝ := tan (swprad wing_sweep)

/-- aviary/subsystems/geometry/gasp_based/wing.py:320 -/
noncomputable def denom (wing_aspect_ratio wing_taper_ratio wing_sweep : ℝ) : ℝ :=
  ((wing_aspect_ratio ^ 2) * ((trp1 wing_taper_ratio) ^ 2)) + (((((wing_aspect_ratio * (trp1
    wing_taper_ratio)) * (tswprad wing_sweep)) - wing_taper_ratio) + 1) ^ 2)

/-- Output `wing_leading_edge_sweep` of `WingParameters.compute`, aviary/subsystems/geometry/gasp_based/wing.py:149 -/
noncomputable def out_wing_leading_edge_sweep (wing_aspect_ratio wing_taper_ratio wing_sweep : ℝ) : ℝ :=
  arctan (tan_sweep_le wing_aspect_ratio wing_taper_ratio wing_sweep)

/-- Output `wing_center_chord` of `WingParameters.compute`, aviary/subsystems/geometry/gasp_based/wing.py:168 -/
noncomputable def out_wing_center_chord (wing_area wing_span wing_taper_ratio : ℝ) : ℝ :=
  center_chord wing_area wing_span wing_taper_ratio

/-- Output `wing_average_chord` of `WingParameters.compute`, aviary/subsystems/geometry/gasp_based/wing.py:169 -/
noncomputable def out_wing_average_chord (wing_area wing_span wing_taper_ratio : ℝ) : ℝ :=
  avg_chord wing_area wing_span wing_taper_ratio

/-- Output `wing_root_chord` of `WingParameters.compute`, aviary/subsystems/geometry/gasp_based/wing.py:170 -/
noncomputable def out_wing_root_chord (wing_area wing_span wing_aspect_ratio wing_taper_ratio wing_sweep wing_thickness_to_chord_root fuselage_avg_diameter : ℝ) : ℝ :=
  root_chord wing_area wing_span wing_aspect_ratio wing_taper_ratio wing_sweep
    wing_thickness_to_chord_root fuselage_avg_diameter

/-- Output `wing_thickness_to_chord_unweighted` of `WingParameters.compute`, aviary/subsystems/geometry/gasp_based/wing.py:171 -/
noncomputable def out_wing_thickness_to_chord_unweighted (wing_span wing_taper_ratio wing_thickness_to_chord_root fuselage_avg_diameter wing_thickness_to_chord_tip : ℝ) : ℝ :=
  tc_ratio_avg wing_span wing_taper_ratio wing_thickness_to_chord_root fuselage_avg_diameter
    wing_thickness_to_chord_tip

/-- Partial of `wing_root_chord` with respect to `wing_area` as set by `WingParameters`, aviary/subsystems/geometry/gasp_based/wing.py:254 -/
noncomputable def J_wing_root_chord__wing_area (wing_area wing_span wing_aspect_ratio wing_taper_ratio wing_sweep wing_thickness_to_chord_root fuselage_avg_diameter : ℝ) : ℝ :=
  drootchord_dwingarea wing_area wing_span wing_aspect_ratio wing_taper_ratio wing_sweep
    wing_thickness_to_chord_root fuselage_avg_diameter

/-- Partial of `wing_root_chord` with respect to `wing_span` as set by `WingParameters`, aviary/subsystems/geometry/gasp_based/wing.py:255 -/
noncomputable def J_wing_root_chord__wing_span (wing_area wing_span wing_aspect_ratio wing_taper_ratio wing_sweep wing_thickness_to_chord_root fuselage_avg_diameter : ℝ) : ℝ :=
  drootchord_dwingspan wing_area wing_span wing_aspect_ratio wing_taper_ratio wing_sweep
    wing_thickness_to_chord_root fuselage_avg_diameter

/-- Partial of `wing_root_chord` with respect to `wing_taper_ratio` as set by `WingParameters`, aviary/subsystems/geometry/gasp_based/wing.py:256 -/
noncomputable def J_wing_root_chord__wing_taper_ratio (wing_area wing_span wing_aspect_ratio wing_taper_ratio wing_sweep wing_thickness_to_chord_root fuselage_avg_diameter : ℝ) : ℝ :=
  drootchord_dtaperratio wing_area wing_span wing_aspect_ratio wing_taper_ratio wing_sweep
    wing_thickness_to_chord_root fuselage_avg_diameter

/-- Partial of `wing_root_chord` with respect to `wing_thickness_to_chord_root` as set by `WingParameters`, aviary/subsystems/geometry/gasp_based/wing.py:257 -/
noncomputable def J_wing_root_chord__wing_thickness_to_chord_root (wing_area wing_span wing_aspect_ratio wing_taper_ratio wing_sweep wing_thickness_to_chord_root fuselage_avg_diameter : ℝ) : ℝ :=
  drootchord_dtc_ratio_rootatioroot wing_area wing_span wing_aspect_ratio wing_taper_ratio
    wing_sweep wing_thickness_to_chord_root fuselage_avg_diameter

/-- Partial of `wing_root_chord` with respect to `fuselage_avg_diameter` as set by `WingParameters`, aviary/subsystems/geometry/gasp_based/wing.py:260 -/
noncomputable def J_wing_root_chord__fuselage_avg_diameter (wing_area wing_span wing_aspect_ratio wing_taper_ratio wing_sweep wing_thickness_to_chord_root fuselage_avg_diameter : ℝ) : ℝ :=
  drootchord_dcabinwidth wing_area wing_span wing_aspect_ratio wing_taper_ratio wing_sweep
    wing_thickness_to_chord_root fuselage_avg_diameter

/-- Partial of `wing_root_chord` with respect to `wing_aspect_ratio` as set by `WingParameters`, aviary/subsystems/geometry/gasp_based/wing.py:261 -/
noncomputable def J_wing_root_chord__wing_aspect_ratio (wing_area wing_span wing_aspect_ratio wing_taper_ratio wing_thickness_to_chord_root fuselage_avg_diameter : ℝ) : ℝ :=
  drootchord_dar wing_area wing_span wing_aspect_ratio wing_taper_ratio
    wing_thickness_to_chord_root fuselage_avg_diameter

/-- Partial of `wing_root_chord` with respect to `wing_sweep` as set by `WingParameters`, aviary/subsystems/geometry/gasp_based/wing.py:262 -/
noncomputable def J_wing_root_chord__wing_sweep (wing_area wing_span wing_taper_ratio wing_sweep wing_thickness_to_chord_root fuselage_avg_diameter : ℝ) : ℝ :=
  drootchord_dsweepc4 wing_area wing_span wing_taper_ratio wing_sweep
    wing_thickness_to_chord_root fuselage_avg_diameter

/-- Partial of `wing_center_chord` with respect to `wing_area` as set by `WingParameters`, aviary/subsystems/geometry/gasp_based/wing.py:264 -/
noncomputable def J_wing_center_chord__wing_area (wing_span wing_taper_ratio : ℝ) : ℝ :=
  dcenterchord_dwingarea wing_span wing_taper_ratio

/-- Partial of `wing_center_chord` with respect to `wing_span` as set by `WingParameters`, aviary/subsystems/geometry/gasp_based/wing.py:265 -/
noncomputable def J_wing_center_chord__wing_span (wing_area wing_span wing_taper_ratio : ℝ) : ℝ :=
  dcenterchord_dwingspan wing_area wing_span wing_taper_ratio

/-- Partial of `wing_center_chord` with respect to `wing_taper_ratio` as set by `WingParameters`, aviary/subsystems/geometry/gasp_based/wing.py:266 -/
noncomputable def J_wing_center_chord__wing_taper_ratio (wing_area wing_span wing_taper_ratio : ℝ) : ℝ :=
  dcenterchord_dtaperratio wing_area wing_span wing_taper_ratio

/-- Partial of `wing_average_chord` with respect to `wing_area` as set by `WingParameters`, aviary/subsystems/geometry/gasp_based/wing.py:268 -/
noncomputable def J_wing_average_chord__wing_area (wing_span wing_taper_ratio : ℝ) : ℝ :=
  ((2 / 3) * ((1 + wing_taper_ratio) - (wing_taper_ratio / (1 + wing_taper_ratio)))) *
    (dcenterchord_dwingarea wing_span wing_taper_ratio)

/-- Partial of `wing_average_chord` with respect to `wing_span` as set by `WingParameters`, aviary/subsystems/geometry/gasp_based/wing.py:273 -/
noncomputable def J_wing_average_chord__wing_span (wing_area wing_span wing_taper_ratio : ℝ) : ℝ :=
  ((2 / 3) * ((1 + wing_taper_ratio) - (wing_taper_ratio / (1 + wing_taper_ratio)))) *
    (dcenterchord_dwingspan wing_area wing_span wing_taper_ratio)

/-- Partial of `wing_average_chord` with respect to `wing_taper_ratio` as set by `WingParameters`, aviary/subsystems/geometry/gasp_based/wing.py:278 -/
noncomputable def J_wing_average_chord__wing_taper_ratio (wing_area wing_span wing_taper_ratio : ℝ) : ℝ :=
  (((dcenterchord_dtaperratio wing_area wing_span wing_taper_ratio) * (2 / 3)) * ((1 +
    wing_taper_ratio) - (wing_taper_ratio / (1 + wing_taper_ratio)))) + (((2 * (center_chord
    wing_area wing_span wing_taper_ratio)) / 3) * (1 - (((1 + wing_taper_ratio) -
    wing_taper_ratio) / ((1 + wing_taper_ratio) ^ 2))))

/-- Partial of `wing_thickness_to_chord_unweighted` with respect to `wing_thickness_to_chord_root` as set by `WingParameters`, aviary/subsystems/geometry/gasp_based/wing.py:299 -/
noncomputable def J_wing_thickness_to_chord_unweighted__wing_thickness_to_chord_root (wing_span wing_taper_ratio fuselage_avg_diameter : ℝ) : ℝ :=
  ((1 - (fuselage_avg_diameter / wing_span)) * (b wing_span wing_taper_ratio
    fuselage_avg_diameter)) / (d wing_span wing_taper_ratio fuselage_avg_diameter)

/-- Partial of `wing_thickness_to_chord_unweighted` with respect to `fuselage_avg_diameter` as set by `WingParameters`, aviary/subsystems/geometry/gasp_based/wing.py:303 -/
noncomputable def J_wing_thickness_to_chord_unweighted__fuselage_avg_diameter (wing_span wing_taper_ratio wing_thickness_to_chord_root fuselage_avg_diameter wing_thickness_to_chord_tip : ℝ) : ℝ :=
  (((d wing_span wing_taper_ratio fuselage_avg_diameter) * (dab_dcabw wing_span wing_taper_ratio
    wing_thickness_to_chord_root fuselage_avg_diameter wing_thickness_to_chord_tip)) - ((((a
    wing_span wing_thickness_to_chord_root fuselage_avg_diameter wing_thickness_to_chord_tip) *
    (b wing_span wing_taper_ratio fuselage_avg_diameter)) + (c wing_taper_ratio
    wing_thickness_to_chord_tip)) * (dd_dcabw wing_span wing_taper_ratio))) / ((d wing_span
    wing_taper_ratio fuselage_avg_diameter) ^ 2)

/-- Partial of `wing_thickness_to_chord_unweighted` with respect to `wing_span` as set by `WingParameters`, aviary/subsystems/geometry/gasp_based/wing.py:306 -/
noncomputable def J_wing_thickness_to_chord_unweighted__wing_span (wing_span wing_taper_ratio wing_thickness_to_chord_root fuselage_avg_diameter wing_thickness_to_chord_tip : ℝ) : ℝ :=
  (((d wing_span wing_taper_ratio fuselage_avg_diameter) * (dab_dwingspan wing_span
    wing_taper_ratio wing_thickness_to_chord_root fuselage_avg_diameter
    wing_thickness_to_chord_tip)) - ((((a wing_span wing_thickness_to_chord_root
    fuselage_avg_diameter wing_thickness_to_chord_tip) * (b wing_span wing_taper_ratio
    fuselage_avg_diameter)) + (c wing_taper_ratio wing_thickness_to_chord_tip)) * (dd_dwingspan
    wing_span wing_taper_ratio fuselage_avg_diameter))) / ((d wing_span wing_taper_ratio
    fuselage_avg_diameter) ^ 2)

/-- Partial of `wing_thickness_to_chord_unweighted` with respect to `wing_thickness_to_chord_tip` as set by `WingParameters`, aviary/subsystems/geometry/gasp_based/wing.py:309 -/
noncomputable def J_wing_thickness_to_chord_unweighted__wing_thickness_to_chord_tip (wing_span wing_taper_ratio fuselage_avg_diameter : ℝ) : ℝ :=
  (((fuselage_avg_diameter / wing_span) * (b wing_span wing_taper_ratio fuselage_avg_diameter))
    + wing_taper_ratio) / (d wing_span wing_taper_ratio fuselage_avg_diameter)

/-- Partial of `wing_thickness_to_chord_unweighted` with respect to `wing_taper_ratio` as set by `WingParameters`, aviary/subsystems/geometry/gasp_based/wing.py:313 -/
noncomputable def J_wing_thickness_to_chord_unweighted__wing_taper_ratio (wing_span wing_taper_ratio wing_thickness_to_chord_root fuselage_avg_diameter wing_thickness_to_chord_tip : ℝ) : ℝ :=
  (((d wing_span wing_taper_ratio fuselage_avg_diameter) * (dabc_dtr wing_span
    wing_thickness_to_chord_root fuselage_avg_diameter wing_thickness_to_chord_tip)) - ((((a
    wing_span wing_thickness_to_chord_root fuselage_avg_diameter wing_thickness_to_chord_tip) *
    (b wing_span wing_taper_ratio fuselage_avg_diameter)) + (c wing_taper_ratio
    wing_thickness_to_chord_tip)) * (dd_dtr wing_span fuselage_avg_diameter))) / ((d wing_span
    wing_taper_ratio fuselage_avg_diameter) ^ 2)

/-- Partial of `wing_leading_edge_sweep` with respect to `wing_taper_ratio` as set by `WingParameters`, aviary/subsystems/geometry/gasp_based/wing.py:321 -/
noncomputable def J_wing_leading_edge_sweep__wing_taper_ratio (wing_aspect_ratio wing_taper_ratio wing_sweep : ℝ) : ℝ :=
  ((-2) * wing_aspect_ratio) / (denom wing_aspect_ratio wing_taper_ratio wing_sweep)

/-- Partial of `wing_leading_edge_sweep` with respect to `wing_aspect_ratio` as set by `WingParameters`, aviary/subsystems/geometry/gasp_based/wing.py:322 -/
noncomputable def J_wing_leading_edge_sweep__wing_aspect_ratio (wing_aspect_ratio wing_taper_ratio wing_sweep : ℝ) : ℝ :=
  ((wing_taper_ratio - 1) * (trp1 wing_taper_ratio)) / (denom wing_aspect_ratio wing_taper_ratio
    wing_sweep)

/-- Partial of `wing_leading_edge_sweep` with respect to `wing_sweep` as set by `WingParameters`, aviary/subsystems/geometry/gasp_based/wing.py:325 -/
noncomputable def J_wing_leading_edge_sweep__wing_sweep (wing_aspect_ratio wing_taper_ratio wing_sweep : ℝ) : ℝ :=
  ((((π * (wing_aspect_ratio ^ 2)) * ((trp1 wing_taper_ratio) ^ 2)) / (denom wing_aspect_ratio
    wing_taper_ratio wing_sweep)) / 180) / ((cos (swprad wing_sweep)) ^ 2)

theorem d_wing_leading_edge_sweep__wing_aspect_ratio (wing_aspect_ratio wing_taper_ratio
    wing_sweep : ℝ) (h0 : 0 < wing_taper_ratio) (h1 : 0 < wing_aspect_ratio) (h2 : cos
    ((wing_sweep * π) / 180) ≠ 0) (h3 : cos ((π * wing_sweep) / 180) ≠ 0) (h4 : 0 <
    ((wing_aspect_ratio * (wing_taper_ratio + 1)) * (tan ((π * wing_sweep) / 180))) -
    wing_taper_ratio) :
    HasDerivAt (fun t => out_wing_leading_edge_sweep t wing_taper_ratio wing_sweep) (J_wing_leading_edge_sweep__wing_aspect_ratio wing_aspect_ratio wing_taper_ratio wing_sweep) wing_aspect_ratio := by
  simp only [out_wing_leading_edge_sweep, J_wing_leading_edge_sweep__wing_aspect_ratio, denom, tswprad, swprad, trp1, tan_sweep_le]
  (apply hasDerivAt_of_eq; on_goal 1 => (repeat' comp_step))
  all_goals try comp_side
  all_goals try simp only [mul_zero, zero_mul, add_zero, zero_add, sub_zero, zero_sub, mul_one, one_mul]
  all_goals try push_cast
  all_goals comp_eq

theorem d_wing_leading_edge_sweep__wing_taper_ratio (wing_aspect_ratio wing_taper_ratio wing_sweep
    : ℝ) (h0 : 0 < wing_taper_ratio) (h1 : 0 < wing_aspect_ratio) (h2 : cos ((wing_sweep * π) /
    180) ≠ 0) (h3 : cos ((π * wing_sweep) / 180) ≠ 0) (h4 : 0 < ((wing_aspect_ratio *
    (wing_taper_ratio + 1)) * (tan ((π * wing_sweep) / 180))) - wing_taper_ratio) :
    HasDerivAt (fun t => out_wing_leading_edge_sweep wing_aspect_ratio t wing_sweep) (J_wing_leading_edge_sweep__wing_taper_ratio wing_aspect_ratio wing_taper_ratio wing_sweep) wing_taper_ratio := by
  simp only [out_wing_leading_edge_sweep, J_wing_leading_edge_sweep__wing_taper_ratio, denom, tswprad, swprad, trp1, tan_sweep_le]
  (apply hasDerivAt_of_eq; on_goal 1 => (repeat' comp_step))
  all_goals try comp_side
  all_goals try simp only [mul_zero, zero_mul, add_zero, zero_add, sub_zero, zero_sub, mul_one, one_mul]
  all_goals try push_cast
  all_goals comp_eq

theorem d_wing_leading_edge_sweep__wing_sweep (wing_aspect_ratio wing_taper_ratio wing_sweep : ℝ)
    (h0 : 0 < wing_taper_ratio) (h1 : 0 < wing_aspect_ratio) (h2 : cos ((wing_sweep * π) / 180) ≠
    0) (h3 : cos ((π * wing_sweep) / 180) ≠ 0) (h4 : 0 < ((wing_aspect_ratio * (wing_taper_ratio +
    1)) * (tan ((π * wing_sweep) / 180))) - wing_taper_ratio) :
    HasDerivAt (fun t => out_wing_leading_edge_sweep wing_aspect_ratio wing_taper_ratio t) (J_wing_leading_edge_sweep__wing_sweep wing_aspect_ratio wing_taper_ratio wing_sweep) wing_sweep := by
  simp only [out_wing_leading_edge_sweep, J_wing_leading_edge_sweep__wing_sweep, denom, tswprad, swprad, trp1, tan_sweep_le]
  (apply hasDerivAt_of_eq; on_goal 1 => (repeat' comp_step))
  all_goals try comp_side
  all_goals try simp only [mul_zero, zero_mul, add_zero, zero_add, sub_zero, zero_sub, mul_one, one_mul]
  all_goals try push_cast
  all_goals comp_eq

theorem d_wing_center_chord__wing_area (wing_area wing_span wing_taper_ratio : ℝ) (h0 : 0 <
    wing_span) (h1 : 0 < wing_taper_ratio) :
    HasDerivAt (fun t => out_wing_center_chord t wing_span wing_taper_ratio) (J_wing_center_chord__wing_area wing_span wing_taper_ratio) wing_area := by
  simp only [out_wing_center_chord, J_wing_center_chord__wing_area, dcenterchord_dwingarea, center_chord]
  (apply hasDerivAt_of_eq; on_goal 1 => (repeat' comp_step))
  all_goals try comp_side
  all_goals try simp only [mul_zero, zero_mul, add_zero, zero_add, sub_zero, zero_sub, mul_one, one_mul]
  all_goals try push_cast
  all_goals comp_eq

theorem d_wing_center_chord__wing_span (wing_area wing_span wing_taper_ratio : ℝ) (h0 : 0 <
    wing_span) (h1 : 0 < wing_taper_ratio) :
    HasDerivAt (fun t => out_wing_center_chord wing_area t wing_taper_ratio) (J_wing_center_chord__wing_span wing_area wing_span wing_taper_ratio) wing_span := by
  simp only [out_wing_center_chord, J_wing_center_chord__wing_span, dcenterchord_dwingspan, center_chord]
  (apply hasDerivAt_of_eq; on_goal 1 => (repeat' comp_step))
  all_goals try comp_side
  all_goals try simp only [mul_zero, zero_mul, add_zero, zero_add, sub_zero, zero_sub, mul_one, one_mul]
  all_goals try push_cast
  all_goals comp_eq

theorem d_wing_center_chord__wing_taper_ratio (wing_area wing_span wing_taper_ratio : ℝ) (h0 : 0 <
    wing_span) (h1 : 0 < wing_taper_ratio) :
    HasDerivAt (fun t => out_wing_center_chord wing_area wing_span t) (J_wing_center_chord__wing_taper_ratio wing_area wing_span wing_taper_ratio) wing_taper_ratio := by
  simp only [out_wing_center_chord, J_wing_center_chord__wing_taper_ratio, dcenterchord_dtaperratio, center_chord]
  (apply hasDerivAt_of_eq; on_goal 1 => (repeat' comp_step))
  all_goals try comp_side
  all_goals try simp only [mul_zero, zero_mul, add_zero, zero_add, sub_zero, zero_sub, mul_one, one_mul]
  all_goals try push_cast
  all_goals comp_eq

theorem d_wing_average_chord__wing_area (wing_area wing_span wing_taper_ratio : ℝ) (h0 : 0 <
    wing_span) (h1 : 0 < wing_taper_ratio) :
    HasDerivAt (fun t => out_wing_average_chord t wing_span wing_taper_ratio) (J_wing_average_chord__wing_area wing_span wing_taper_ratio) wing_area := by
  simp only [out_wing_average_chord, J_wing_average_chord__wing_area, dcenterchord_dwingarea, avg_chord, center_chord]
  (apply hasDerivAt_of_eq; on_goal 1 => (repeat' comp_step))
  all_goals try comp_side
  all_goals try simp only [mul_zero, zero_mul, add_zero, zero_add, sub_zero, zero_sub, mul_one, one_mul]
  all_goals try push_cast
  all_goals comp_eq

theorem d_wing_average_chord__wing_span (wing_area wing_span wing_taper_ratio : ℝ) (h0 : 0 <
    wing_span) (h1 : 0 < wing_taper_ratio) :
    HasDerivAt (fun t => out_wing_average_chord wing_area t wing_taper_ratio) (J_wing_average_chord__wing_span wing_area wing_span wing_taper_ratio) wing_span := by
  simp only [out_wing_average_chord, J_wing_average_chord__wing_span, dcenterchord_dwingspan, avg_chord, center_chord]
  (apply hasDerivAt_of_eq; on_goal 1 => (repeat' comp_step))
  all_goals try comp_side
  all_goals try simp only [mul_zero, zero_mul, add_zero, zero_add, sub_zero, zero_sub, mul_one, one_mul]
  all_goals try push_cast
  all_goals comp_eq

theorem d_wing_average_chord__wing_taper_ratio (wing_area wing_span wing_taper_ratio : ℝ) (h0 : 0
    < wing_span) (h1 : 0 < wing_taper_ratio) :
    HasDerivAt (fun t => out_wing_average_chord wing_area wing_span t) (J_wing_average_chord__wing_taper_ratio wing_area wing_span wing_taper_ratio) wing_taper_ratio := by
  simp only [out_wing_average_chord, J_wing_average_chord__wing_taper_ratio, dcenterchord_dtaperratio, avg_chord, center_chord]
  (apply hasDerivAt_of_eq; on_goal 1 => (repeat' comp_step))
  all_goals try comp_side
  all_goals try simp only [mul_zero, zero_mul, add_zero, zero_add, sub_zero, zero_sub, mul_one, one_mul]
  all_goals try push_cast
  all_goals comp_eq

theorem d_wing_root_chord__wing_area (wing_area wing_span wing_aspect_ratio wing_taper_ratio
    wing_sweep wing_thickness_to_chord_root fuselage_avg_diameter : ℝ) (h0 : 0 < wing_span) (h1 :
    0 < wing_taper_ratio) (h2 : 0 < wing_thickness_to_chord_root) (h3 : 0 < wing_area) (h4 : 0 <
    fuselage_avg_diameter - (wing_thickness_to_chord_root * (((2 * wing_area) / wing_span) / (1 +
    wing_taper_ratio)))) (h5 : 0 < wing_aspect_ratio) (h6 : cos ((wing_sweep * π) / 180) ≠ 0) (h7
    : cos (wing_sweep * (π / 180)) ≠ 0) :
    HasDerivAt (fun t => out_wing_root_chord t wing_span wing_aspect_ratio wing_taper_ratio wing_sweep wing_thickness_to_chord_root fuselage_avg_diameter) (J_wing_root_chord__wing_area wing_area wing_span wing_aspect_ratio wing_taper_ratio wing_sweep wing_thickness_to_chord_root fuselage_avg_diameter) wing_area := by
  have e0 : ∀ x : ℝ, 0 < x → x ^ ((-(1 / 2)) : ℝ) = x ^ ((1 / 2) : ℝ) / x ^ 1 := fun x hx => rpow_down hx 1 (by norm_num)
  simp only [out_wing_root_chord, J_wing_root_chord__wing_area, drootchord_dwingarea, tan_sweep_le_2, dfhp_dwingarea, dcenterchord_dwingarea, root_chord, tan_sweep_te, hp, tan_sweep_le, fhp, center_chord]
  (apply hasDerivAt_of_eq; on_goal 1 => (repeat' comp_step))
  all_goals try comp_side
  all_goals try simp (disch := first | assumption | positivity) only [e0, div_mul_eq_div_div, div_half, inv_half]
  all_goals try simp only [mul_zero, zero_mul, add_zero, zero_add, sub_zero, zero_sub, mul_one, one_mul]
  all_goals try push_cast
  all_goals comp_eq

theorem d_wing_root_chord__wing_span (wing_area wing_span wing_aspect_ratio wing_taper_ratio
    wing_sweep wing_thickness_to_chord_root fuselage_avg_diameter : ℝ) (h0 : 0 < wing_span) (h1 :
    0 < wing_taper_ratio) (h2 : 0 < wing_thickness_to_chord_root) (h3 : 0 < wing_area) (h4 : 0 <
    fuselage_avg_diameter - (wing_thickness_to_chord_root * (((2 * wing_area) / wing_span) / (1 +
    wing_taper_ratio)))) (h5 : 0 < wing_aspect_ratio) (h6 : cos ((wing_sweep * π) / 180) ≠ 0) (h7
    : cos (wing_sweep * (π / 180)) ≠ 0) :
    HasDerivAt (fun t => out_wing_root_chord wing_area t wing_aspect_ratio wing_taper_ratio wing_sweep wing_thickness_to_chord_root fuselage_avg_diameter) (J_wing_root_chord__wing_span wing_area wing_span wing_aspect_ratio wing_taper_ratio wing_sweep wing_thickness_to_chord_root fuselage_avg_diameter) wing_span := by
  have e0 : ∀ x : ℝ, 0 < x → x ^ ((-(1 / 2)) : ℝ) = x ^ ((1 / 2) : ℝ) / x ^ 1 := fun x hx => rpow_down hx 1 (by norm_num)
  simp only [out_wing_root_chord, J_wing_root_chord__wing_span, drootchord_dwingspan, tan_sweep_le_2, dfhp_dwingspan, dcenterchord_dwingspan, root_chord, tan_sweep_te, hp, tan_sweep_le, fhp, center_chord]
  (apply hasDerivAt_of_eq; on_goal 1 => (repeat' comp_step))
  all_goals try comp_side
  all_goals try simp (disch := first | assumption | positivity) only [e0, div_mul_eq_div_div, div_half, inv_half]
  all_goals try simp only [mul_zero, zero_mul, add_zero, zero_add, sub_zero, zero_sub, mul_one, one_mul]
  all_goals try push_cast
  all_goals comp_eq

theorem d_wing_root_chord__wing_aspect_ratio (wing_area wing_span wing_aspect_ratio
    wing_taper_ratio wing_sweep wing_thickness_to_chord_root fuselage_avg_diameter : ℝ) (h0 : 0 <
    wing_span) (h1 : 0 < wing_taper_ratio) (h2 : 0 < wing_thickness_to_chord_root) (h3 : 0 <
    wing_area) (h4 : 0 < fuselage_avg_diameter - (wing_thickness_to_chord_root * (((2 * wing_area)
    / wing_span) / (1 + wing_taper_ratio)))) (h5 : 0 < wing_aspect_ratio) (h6 : cos ((wing_sweep *
    π) / 180) ≠ 0) (h7 : cos (wing_sweep * (π / 180)) ≠ 0) :
    HasDerivAt (fun t => out_wing_root_chord wing_area wing_span t wing_taper_ratio wing_sweep wing_thickness_to_chord_root fuselage_avg_diameter) (J_wing_root_chord__wing_aspect_ratio wing_area wing_span wing_aspect_ratio wing_taper_ratio wing_thickness_to_chord_root fuselage_avg_diameter) wing_aspect_ratio := by
  simp only [out_wing_root_chord, J_wing_root_chord__wing_aspect_ratio, drootchord_dar, dtansweepte_dar, dtansweeple_dar, root_chord, tan_sweep_te, hp, tan_sweep_le, fhp, center_chord]
  (apply hasDerivAt_of_eq; on_goal 1 => (repeat' comp_step))
  all_goals try comp_side
  all_goals try simp (disch := first | assumption | positivity) only [div_mul_eq_div_div, div_half, inv_half]
  all_goals try simp only [mul_zero, zero_mul, add_zero, zero_add, sub_zero, zero_sub, mul_one, one_mul]
  all_goals try push_cast
  all_goals comp_eq

theorem d_wing_root_chord__wing_taper_ratio (wing_area wing_span wing_aspect_ratio
    wing_taper_ratio wing_sweep wing_thickness_to_chord_root fuselage_avg_diameter : ℝ) (h0 : 0 <
    wing_span) (h1 : 0 < wing_taper_ratio) (h2 : 0 < wing_thickness_to_chord_root) (h3 : 0 <
    wing_area) (h4 : 0 < fuselage_avg_diameter - (wing_thickness_to_chord_root * (((2 * wing_area)
    / wing_span) / (1 + wing_taper_ratio)))) (h5 : 0 < wing_aspect_ratio) (h6 : cos ((wing_sweep *
    π) / 180) ≠ 0) (h7 : cos (wing_sweep * (π / 180)) ≠ 0) :
    HasDerivAt (fun t => out_wing_root_chord wing_area wing_span wing_aspect_ratio t wing_sweep wing_thickness_to_chord_root fuselage_avg_diameter) (J_wing_root_chord__wing_taper_ratio wing_area wing_span wing_aspect_ratio wing_taper_ratio wing_sweep wing_thickness_to_chord_root fuselage_avg_diameter) wing_taper_ratio := by
  have e0 : ∀ x : ℝ, 0 < x → x ^ ((-(1 / 2)) : ℝ) = x ^ ((1 / 2) : ℝ) / x ^ 1 := fun x hx => rpow_down hx 1 (by norm_num)
  simp only [out_wing_root_chord, J_wing_root_chord__wing_taper_ratio, drootchord_dtaperratio, dtansweepte_dtaperratio, dtansweeple_dtaperratio, tan_sweep_le_2, dfhp_dtaperratio, dcenterchord_dtaperratio, root_chord, tan_sweep_te, hp, tan_sweep_le, fhp, center_chord]
  (apply hasDerivAt_of_eq; on_goal 1 => (repeat' comp_step))
  all_goals try comp_side
  all_goals try simp (disch := first | assumption | positivity) only [e0, div_mul_eq_div_div, div_half, inv_half]
  all_goals try simp only [mul_zero, zero_mul, add_zero, zero_add, sub_zero, zero_sub, mul_one, one_mul]
  all_goals try push_cast
  all_goals comp_eq

theorem d_wing_root_chord__wing_sweep (wing_area wing_span wing_aspect_ratio wing_taper_ratio
    wing_sweep wing_thickness_to_chord_root fuselage_avg_diameter : ℝ) (h0 : 0 < wing_span) (h1 :
    0 < wing_taper_ratio) (h2 : 0 < wing_thickness_to_chord_root) (h3 : 0 < wing_area) (h4 : 0 <
    fuselage_avg_diameter - (wing_thickness_to_chord_root * (((2 * wing_area) / wing_span) / (1 +
    wing_taper_ratio)))) (h5 : 0 < wing_aspect_ratio) (h6 : cos ((wing_sweep * π) / 180) ≠ 0) (h7
    : cos (wing_sweep * (π / 180)) ≠ 0) :
    HasDerivAt (fun t => out_wing_root_chord wing_area wing_span wing_aspect_ratio wing_taper_ratio t wing_thickness_to_chord_root fuselage_avg_diameter) (J_wing_root_chord__wing_sweep wing_area wing_span wing_taper_ratio wing_sweep wing_thickness_to_chord_root fuselage_avg_diameter) wing_sweep := by
  simp only [out_wing_root_chord, J_wing_root_chord__wing_sweep, drootchord_dsweepc4, dtansweeple_dsweepc4, root_chord, tan_sweep_te, hp, tan_sweep_le, fhp, center_chord]
  (apply hasDerivAt_of_eq; on_goal 1 => (repeat' comp_step))
  all_goals try comp_side
  all_goals try simp (disch := first | assumption | positivity) only [div_mul_eq_div_div, div_half, inv_half]
  all_goals try simp only [mul_zero, zero_mul, add_zero, zero_add, sub_zero, zero_sub, mul_one, one_mul]
  all_goals try push_cast
  all_goals comp_eq

theorem d_wing_root_chord__wing_thickness_to_chord_root (wing_area wing_span wing_aspect_ratio
    wing_taper_ratio wing_sweep wing_thickness_to_chord_root fuselage_avg_diameter : ℝ) (h0 : 0 <
    wing_span) (h1 : 0 < wing_taper_ratio) (h2 : 0 < wing_thickness_to_chord_root) (h3 : 0 <
    wing_area) (h4 : 0 < fuselage_avg_diameter - (wing_thickness_to_chord_root * (((2 * wing_area)
    / wing_span) / (1 + wing_taper_ratio)))) (h5 : 0 < wing_aspect_ratio) (h6 : cos ((wing_sweep *
    π) / 180) ≠ 0) (h7 : cos (wing_sweep * (π / 180)) ≠ 0) :
    HasDerivAt (fun t => out_wing_root_chord wing_area wing_span wing_aspect_ratio wing_taper_ratio wing_sweep t fuselage_avg_diameter) (J_wing_root_chord__wing_thickness_to_chord_root wing_area wing_span wing_aspect_ratio wing_taper_ratio wing_sweep wing_thickness_to_chord_root fuselage_avg_diameter) wing_thickness_to_chord_root := by
  have e0 : ∀ x : ℝ, 0 < x → x ^ ((-(1 / 2)) : ℝ) = x ^ ((1 / 2) : ℝ) / x ^ 1 := fun x hx => rpow_down hx 1 (by norm_num)
  simp only [out_wing_root_chord, J_wing_root_chord__wing_thickness_to_chord_root, drootchord_dtc_ratio_rootatioroot, tan_sweep_le_2, dfhp_dtc_ratio_rootatioroot, root_chord, tan_sweep_te, hp, tan_sweep_le, fhp, center_chord]
  (apply hasDerivAt_of_eq; on_goal 1 => (repeat' comp_step))
  all_goals try comp_side
  all_goals try simp (disch := first | assumption | positivity) only [e0, div_mul_eq_div_div, div_half, inv_half]
  all_goals try simp only [mul_zero, zero_mul, add_zero, zero_add, sub_zero, zero_sub, mul_one, one_mul]
  all_goals try push_cast
  all_goals comp_eq

theorem d_wing_root_chord__fuselage_avg_diameter (wing_area wing_span wing_aspect_ratio
    wing_taper_ratio wing_sweep wing_thickness_to_chord_root fuselage_avg_diameter : ℝ) (h0 : 0 <
    wing_span) (h1 : 0 < wing_taper_ratio) (h2 : 0 < wing_thickness_to_chord_root) (h3 : 0 <
    wing_area) (h4 : 0 < fuselage_avg_diameter - (wing_thickness_to_chord_root * (((2 * wing_area)
    / wing_span) / (1 + wing_taper_ratio)))) (h5 : 0 < wing_aspect_ratio) (h6 : cos ((wing_sweep *
    π) / 180) ≠ 0) (h7 : cos (wing_sweep * (π / 180)) ≠ 0) :
    HasDerivAt (fun t => out_wing_root_chord wing_area wing_span wing_aspect_ratio wing_taper_ratio wing_sweep wing_thickness_to_chord_root t) (J_wing_root_chord__fuselage_avg_diameter wing_area wing_span wing_aspect_ratio wing_taper_ratio wing_sweep wing_thickness_to_chord_root fuselage_avg_diameter) fuselage_avg_diameter := by
  have e0 : ∀ x : ℝ, 0 < x → x ^ ((-(1 / 2)) : ℝ) = x ^ ((1 / 2) : ℝ) / x ^ 1 := fun x hx => rpow_down hx 1 (by norm_num)
  simp only [out_wing_root_chord, J_wing_root_chord__fuselage_avg_diameter, drootchord_dcabinwidth, tan_sweep_le_2, dfhp_dcabinwidth, root_chord, tan_sweep_te, hp, tan_sweep_le, fhp, center_chord]
  (apply hasDerivAt_of_eq; on_goal 1 => (repeat' comp_step))
  all_goals try comp_side
  all_goals try simp (disch := first | assumption | positivity) only [e0, div_mul_eq_div_div, div_half, inv_half]
  all_goals try simp only [mul_zero, zero_mul, add_zero, zero_add, sub_zero, zero_sub, mul_one, one_mul]
  all_goals try push_cast
  all_goals comp_eq

theorem d_wing_thickness_to_chord_unweighted__wing_span (wing_span wing_taper_ratio
    wing_thickness_to_chord_root fuselage_avg_diameter wing_thickness_to_chord_tip : ℝ) (h0 : 0 <
    wing_span) (h1 : (1 + wing_taper_ratio) - ((fuselage_avg_diameter / wing_span) * (1 -
    wing_taper_ratio)) ≠ 0) :
    HasDerivAt (fun t => out_wing_thickness_to_chord_unweighted t wing_taper_ratio wing_thickness_to_chord_root fuselage_avg_diameter wing_thickness_to_chord_tip) (J_wing_thickness_to_chord_unweighted__wing_span wing_span wing_taper_ratio wing_thickness_to_chord_root fuselage_avg_diameter wing_thickness_to_chord_tip) wing_span := by
  simp only [out_wing_thickness_to_chord_unweighted, J_wing_thickness_to_chord_unweighted__wing_span, dd_dwingspan, c, dab_dwingspan, b, a, d, tc_ratio_avg]
  (apply hasDerivAt_of_eq; on_goal 1 => (repeat' comp_step))
  all_goals try comp_side
  all_goals try simp only [mul_zero, zero_mul, add_zero, zero_add, sub_zero, zero_sub, mul_one, one_mul]
  all_goals try push_cast
  all_goals comp_eq

theorem d_wing_thickness_to_chord_unweighted__wing_taper_ratio (wing_span wing_taper_ratio
    wing_thickness_to_chord_root fuselage_avg_diameter wing_thickness_to_chord_tip : ℝ) (h0 : 0 <
    wing_span) (h1 : (1 + wing_taper_ratio) - ((fuselage_avg_diameter / wing_span) * (1 -
    wing_taper_ratio)) ≠ 0) :
    HasDerivAt (fun t => out_wing_thickness_to_chord_unweighted wing_span t wing_thickness_to_chord_root fuselage_avg_diameter wing_thickness_to_chord_tip) (J_wing_thickness_to_chord_unweighted__wing_taper_ratio wing_span wing_taper_ratio wing_thickness_to_chord_root fuselage_avg_diameter wing_thickness_to_chord_tip) wing_taper_ratio := by
  simp only [out_wing_thickness_to_chord_unweighted, J_wing_thickness_to_chord_unweighted__wing_taper_ratio, dd_dtr, c, b, dabc_dtr, a, d, tc_ratio_avg]
  (apply hasDerivAt_of_eq; on_goal 1 => (repeat' comp_step))
  all_goals try comp_side
  all_goals try simp only [mul_zero, zero_mul, add_zero, zero_add, sub_zero, zero_sub, mul_one, one_mul]
  all_goals try push_cast
  all_goals comp_eq

theorem d_wing_thickness_to_chord_unweighted__wing_thickness_to_chord_root (wing_span
    wing_taper_ratio wing_thickness_to_chord_root fuselage_avg_diameter
    wing_thickness_to_chord_tip : ℝ) (h0 : 0 < wing_span) (h1 : (1 + wing_taper_ratio) -
    ((fuselage_avg_diameter / wing_span) * (1 - wing_taper_ratio)) ≠ 0) :
    HasDerivAt (fun t => out_wing_thickness_to_chord_unweighted wing_span wing_taper_ratio t fuselage_avg_diameter wing_thickness_to_chord_tip) (J_wing_thickness_to_chord_unweighted__wing_thickness_to_chord_root wing_span wing_taper_ratio fuselage_avg_diameter) wing_thickness_to_chord_root := by
  simp only [out_wing_thickness_to_chord_unweighted, J_wing_thickness_to_chord_unweighted__wing_thickness_to_chord_root, d, b, tc_ratio_avg]
  (apply hasDerivAt_of_eq; on_goal 1 => (repeat' comp_step))
  all_goals try comp_side
  all_goals try simp only [mul_zero, zero_mul, add_zero, zero_add, sub_zero, zero_sub, mul_one, one_mul]
  all_goals try push_cast
  all_goals comp_eq

theorem d_wing_thickness_to_chord_unweighted__fuselage_avg_diameter (wing_span wing_taper_ratio
    wing_thickness_to_chord_root fuselage_avg_diameter wing_thickness_to_chord_tip : ℝ) (h0 : 0 <
    wing_span) (h1 : (1 + wing_taper_ratio) - ((fuselage_avg_diameter / wing_span) * (1 -
    wing_taper_ratio)) ≠ 0) :
    HasDerivAt (fun t => out_wing_thickness_to_chord_unweighted wing_span wing_taper_ratio wing_thickness_to_chord_root t wing_thickness_to_chord_tip) (J_wing_thickness_to_chord_unweighted__fuselage_avg_diameter wing_span wing_taper_ratio wing_thickness_to_chord_root fuselage_avg_diameter wing_thickness_to_chord_tip) fuselage_avg_diameter := by
  simp only [out_wing_thickness_to_chord_unweighted, J_wing_thickness_to_chord_unweighted__fuselage_avg_diameter, dd_dcabw, c, dab_dcabw, b, a, d, tc_ratio_avg]
  (apply hasDerivAt_of_eq; on_goal 1 => (repeat' comp_step))
  all_goals try comp_side
  all_goals try simp only [mul_zero, zero_mul, add_zero, zero_add, sub_zero, zero_sub, mul_one, one_mul]
  all_goals try push_cast
  all_goals comp_eq

theorem d_wing_thickness_to_chord_unweighted__wing_thickness_to_chord_tip (wing_span
    wing_taper_ratio wing_thickness_to_chord_root fuselage_avg_diameter
    wing_thickness_to_chord_tip : ℝ) (h0 : 0 < wing_span) (h1 : (1 + wing_taper_ratio) -
    ((fuselage_avg_diameter / wing_span) * (1 - wing_taper_ratio)) ≠ 0) :
    HasDerivAt (fun t => out_wing_thickness_to_chord_unweighted wing_span wing_taper_ratio wing_thickness_to_chord_root fuselage_avg_diameter t) (J_wing_thickness_to_chord_unweighted__wing_thickness_to_chord_tip wing_span wing_taper_ratio fuselage_avg_diameter) wing_thickness_to_chord_tip := by
  simp only [out_wing_thickness_to_chord_unweighted, J_wing_thickness_to_chord_unweighted__wing_thickness_to_chord_tip, d, b, tc_ratio_avg]
  (apply hasDerivAt_of_eq; on_goal 1 => (repeat' comp_step))
  all_goals try comp_side
  all_goals try simp only [mul_zero, zero_mul, add_zero, zero_add, sub_zero, zero_sub, mul_one, one_mul]
  all_goals try push_cast
  all_goals comp_eq

/-- Every partial derivative set by `WingParameters` is the derivative of its output. -/
theorem partials (wing_area wing_span wing_aspect_ratio wing_taper_ratio wing_sweep
    wing_thickness_to_chord_root fuselage_avg_diameter wing_thickness_to_chord_tip : ℝ) (h0 : 0 <
    wing_taper_ratio) (h1 : 0 < wing_aspect_ratio) (h2 : cos ((wing_sweep * π) / 180) ≠ 0) (h3 :
    cos ((π * wing_sweep) / 180) ≠ 0) (h4 : 0 < ((wing_aspect_ratio * (wing_taper_ratio + 1)) *
    (tan ((π * wing_sweep) / 180))) - wing_taper_ratio) (h5 : 0 < wing_span) (h6 : 0 <
    wing_thickness_to_chord_root) (h7 : 0 < wing_area) (h8 : 0 < fuselage_avg_diameter -
    (wing_thickness_to_chord_root * (((2 * wing_area) / wing_span) / (1 + wing_taper_ratio)))) (h9
    : cos (wing_sweep * (π / 180)) ≠ 0) (h10 : (1 + wing_taper_ratio) - ((fuselage_avg_diameter /
    wing_span) * (1 - wing_taper_ratio)) ≠ 0) :
    HasDerivAt (fun t => out_wing_leading_edge_sweep t wing_taper_ratio wing_sweep)
      (J_wing_leading_edge_sweep__wing_aspect_ratio wing_aspect_ratio wing_taper_ratio wing_sweep)
      wing_aspect_ratio ∧
    HasDerivAt (fun t => out_wing_leading_edge_sweep wing_aspect_ratio t wing_sweep)
      (J_wing_leading_edge_sweep__wing_taper_ratio wing_aspect_ratio wing_taper_ratio wing_sweep)
      wing_taper_ratio ∧
    HasDerivAt (fun t => out_wing_leading_edge_sweep wing_aspect_ratio wing_taper_ratio t)
      (J_wing_leading_edge_sweep__wing_sweep wing_aspect_ratio wing_taper_ratio wing_sweep)
      wing_sweep ∧
    HasDerivAt (fun t => out_wing_center_chord t wing_span wing_taper_ratio)
      (J_wing_center_chord__wing_area wing_span wing_taper_ratio) wing_area ∧
    HasDerivAt (fun t => out_wing_center_chord wing_area t wing_taper_ratio)
      (J_wing_center_chord__wing_span wing_area wing_span wing_taper_ratio) wing_span ∧
    HasDerivAt (fun t => out_wing_center_chord wing_area wing_span t)
      (J_wing_center_chord__wing_taper_ratio wing_area wing_span wing_taper_ratio)
      wing_taper_ratio ∧
    HasDerivAt (fun t => out_wing_average_chord t wing_span wing_taper_ratio)
      (J_wing_average_chord__wing_area wing_span wing_taper_ratio) wing_area ∧
    HasDerivAt (fun t => out_wing_average_chord wing_area t wing_taper_ratio)
      (J_wing_average_chord__wing_span wing_area wing_span wing_taper_ratio) wing_span ∧
    HasDerivAt (fun t => out_wing_average_chord wing_area wing_span t)
      (J_wing_average_chord__wing_taper_ratio wing_area wing_span wing_taper_ratio)
      wing_taper_ratio ∧
    HasDerivAt (fun t => out_wing_root_chord t wing_span wing_aspect_ratio wing_taper_ratio wing_sweep
      wing_thickness_to_chord_root fuselage_avg_diameter) (J_wing_root_chord__wing_area wing_area
      wing_span wing_aspect_ratio wing_taper_ratio wing_sweep wing_thickness_to_chord_root
      fuselage_avg_diameter) wing_area ∧
    HasDerivAt (fun t => out_wing_root_chord wing_area t wing_aspect_ratio wing_taper_ratio wing_sweep
      wing_thickness_to_chord_root fuselage_avg_diameter) (J_wing_root_chord__wing_span wing_area
      wing_span wing_aspect_ratio wing_taper_ratio wing_sweep wing_thickness_to_chord_root
      fuselage_avg_diameter) wing_span ∧
    HasDerivAt (fun t => out_wing_root_chord wing_area wing_span t wing_taper_ratio wing_sweep
      wing_thickness_to_chord_root fuselage_avg_diameter) (J_wing_root_chord__wing_aspect_ratio
      wing_area wing_span wing_aspect_ratio wing_taper_ratio wing_thickness_to_chord_root
      fuselage_avg_diameter) wing_aspect_ratio ∧
    HasDerivAt (fun t => out_wing_root_chord wing_area wing_span wing_aspect_ratio t wing_sweep
      wing_thickness_to_chord_root fuselage_avg_diameter) (J_wing_root_chord__wing_taper_ratio
      wing_area wing_span wing_aspect_ratio wing_taper_ratio wing_sweep
      wing_thickness_to_chord_root fuselage_avg_diameter) wing_taper_ratio ∧
    HasDerivAt (fun t => out_wing_root_chord wing_area wing_span wing_aspect_ratio wing_taper_ratio t
      wing_thickness_to_chord_root fuselage_avg_diameter) (J_wing_root_chord__wing_sweep wing_area
      wing_span wing_taper_ratio wing_sweep wing_thickness_to_chord_root fuselage_avg_diameter)
      wing_sweep ∧
    HasDerivAt (fun t => out_wing_root_chord wing_area wing_span wing_aspect_ratio wing_taper_ratio
      wing_sweep t fuselage_avg_diameter) (J_wing_root_chord__wing_thickness_to_chord_root
      wing_area wing_span wing_aspect_ratio wing_taper_ratio wing_sweep
      wing_thickness_to_chord_root fuselage_avg_diameter) wing_thickness_to_chord_root ∧
    HasDerivAt (fun t => out_wing_root_chord wing_area wing_span wing_aspect_ratio wing_taper_ratio
      wing_sweep wing_thickness_to_chord_root t) (J_wing_root_chord__fuselage_avg_diameter
      wing_area wing_span wing_aspect_ratio wing_taper_ratio wing_sweep
      wing_thickness_to_chord_root fuselage_avg_diameter) fuselage_avg_diameter ∧
    HasDerivAt (fun t => out_wing_thickness_to_chord_unweighted t wing_taper_ratio
      wing_thickness_to_chord_root fuselage_avg_diameter wing_thickness_to_chord_tip)
      (J_wing_thickness_to_chord_unweighted__wing_span wing_span wing_taper_ratio
      wing_thickness_to_chord_root fuselage_avg_diameter wing_thickness_to_chord_tip) wing_span ∧
    HasDerivAt (fun t => out_wing_thickness_to_chord_unweighted wing_span t
      wing_thickness_to_chord_root fuselage_avg_diameter wing_thickness_to_chord_tip)
      (J_wing_thickness_to_chord_unweighted__wing_taper_ratio wing_span wing_taper_ratio
      wing_thickness_to_chord_root fuselage_avg_diameter wing_thickness_to_chord_tip)
      wing_taper_ratio ∧
    HasDerivAt (fun t => out_wing_thickness_to_chord_unweighted wing_span wing_taper_ratio t
      fuselage_avg_diameter wing_thickness_to_chord_tip)
      (J_wing_thickness_to_chord_unweighted__wing_thickness_to_chord_root wing_span
      wing_taper_ratio fuselage_avg_diameter) wing_thickness_to_chord_root ∧
    HasDerivAt (fun t => out_wing_thickness_to_chord_unweighted wing_span wing_taper_ratio
      wing_thickness_to_chord_root t wing_thickness_to_chord_tip)
      (J_wing_thickness_to_chord_unweighted__fuselage_avg_diameter wing_span wing_taper_ratio
      wing_thickness_to_chord_root fuselage_avg_diameter wing_thickness_to_chord_tip)
      fuselage_avg_diameter ∧
    HasDerivAt (fun t => out_wing_thickness_to_chord_unweighted wing_span wing_taper_ratio
      wing_thickness_to_chord_root fuselage_avg_diameter t)
      (J_wing_thickness_to_chord_unweighted__wing_thickness_to_chord_tip wing_span
      wing_taper_ratio fuselage_avg_diameter) wing_thickness_to_chord_tip :=
  ⟨d_wing_leading_edge_sweep__wing_aspect_ratio _ _ _ h0 h1 h2 h3 h4,
    d_wing_leading_edge_sweep__wing_taper_ratio _ _ _ h0 h1 h2 h3 h4,
    d_wing_leading_edge_sweep__wing_sweep _ _ _ h0 h1 h2 h3 h4, d_wing_center_chord__wing_area _ _
    _ h5 h0, d_wing_center_chord__wing_span _ _ _ h5 h0, d_wing_center_chord__wing_taper_ratio _ _
    _ h5 h0, d_wing_average_chord__wing_area _ _ _ h5 h0, d_wing_average_chord__wing_span _ _ _ h5
    h0, d_wing_average_chord__wing_taper_ratio _ _ _ h5 h0, d_wing_root_chord__wing_area _ _ _ _ _
    _ _ h5 h0 h6 h7 h8 h1 h2 h9, d_wing_root_chord__wing_span _ _ _ _ _ _ _ h5 h0 h6 h7 h8 h1 h2
    h9, d_wing_root_chord__wing_aspect_ratio _ _ _ _ _ _ _ h5 h0 h6 h7 h8 h1 h2 h9,
    d_wing_root_chord__wing_taper_ratio _ _ _ _ _ _ _ h5 h0 h6 h7 h8 h1 h2 h9,
    d_wing_root_chord__wing_sweep _ _ _ _ _ _ _ h5 h0 h6 h7 h8 h1 h2 h9,
    d_wing_root_chord__wing_thickness_to_chord_root _ _ _ _ _ _ _ h5 h0 h6 h7 h8 h1 h2 h9,
    d_wing_root_chord__fuselage_avg_diameter _ _ _ _ _ _ _ h5 h0 h6 h7 h8 h1 h2 h9,
    d_wing_thickness_to_chord_unweighted__wing_span _ _ _ _ _ h5 h10,
    d_wing_thickness_to_chord_unweighted__wing_taper_ratio _ _ _ _ _ h5 h10,
    d_wing_thickness_to_chord_unweighted__wing_thickness_to_chord_root _ _ _ _ _ h5 h10,
    d_wing_thickness_to_chord_unweighted__fuselage_avg_diameter _ _ _ _ _ h5 h10,
    d_wing_thickness_to_chord_unweighted__wing_thickness_to_chord_tip _ _ _ _ _ h5 h10⟩

end Verif.Comp.GeometryGaspBasedWing.WingParameters

namespace Verif.Comp.GeometryGaspBasedWing.WingSize
open Real

/-- aviary/subsystems/geometry/gasp_based/wing.py:44 -/
noncomputable def wing_area (design_gross_mass design_wing_loading : ℝ) : ℝ :=
  design_gross_mass / design_wing_loading

/-- aviary/subsystems/geometry/gasp_based/wing.py:45 -/
noncomputable def wingspan (design_gross_mass design_wing_loading wing_aspect_ratio : ℝ) : ℝ :=
  (wing_aspect_ratio * (wing_area design_gross_mass design_wing_loading)) ^ ((1 / 2) : ℝ)

/-- aviary/subsystems/geometry/gasp_based/wing.py:57 -/
noncomputable def dwa_dgmt (design_wing_loading : ℝ) : ℝ := 1 / design_wing_loading

/-- aviary/subsystems/geometry/gasp_based/wing.py:60 -/
noncomputable def dwa_dwl (design_gross_mass design_wing_loading : ℝ) : ℝ :=
  (-design_gross_mass) / (design_wing_loading ^ 2)

/-- Output `wing_area` of `WingSize.compute`, aviary/subsystems/geometry/gasp_based/wing.py:47 -/
noncomputable def out_wing_area (design_gross_mass design_wing_loading : ℝ) : ℝ :=
  wing_area design_gross_mass design_wing_loading

/-- Output `wing_span` of `WingSize.compute`, aviary/subsystems/geometry/gasp_based/wing.py:48 -/
noncomputable def out_wing_span (design_gross_mass design_wing_loading wing_aspect_ratio : ℝ) : ℝ :=
  wingspan design_gross_mass design_wing_loading wing_aspect_ratio

/-- Partial of `wing_area` with respect to `design_gross_mass` as set by `WingSize`, aviary/subsystems/geometry/gasp_based/wing.py:57 -/
noncomputable def J_wing_area__design_gross_mass (design_wing_loading : ℝ) : ℝ :=
  dwa_dgmt design_wing_loading

/-- Partial of `wing_area` with respect to `design_wing_loading` as set by `WingSize`, aviary/subsystems/geometry/gasp_based/wing.py:60 -/
noncomputable def J_wing_area__design_wing_loading (design_gross_mass design_wing_loading : ℝ) : ℝ :=
  dwa_dwl design_gross_mass design_wing_loading

/-- Partial of `wing_span` with respect to `wing_aspect_ratio` as set by `WingSize`, aviary/subsystems/geometry/gasp_based/wing.py:64 -/
noncomputable def J_wing_span__wing_aspect_ratio (design_gross_mass design_wing_loading wing_aspect_ratio : ℝ) : ℝ :=
  ((1 / 2) * ((wing_area design_gross_mass design_wing_loading) ^ ((1 / 2) : ℝ))) *
    (wing_aspect_ratio ^ ((-(1 / 2)) : ℝ))

/-- Partial of `wing_span` with respect to `design_gross_mass` as set by `WingSize`, aviary/subsystems/geometry/gasp_based/wing.py:65 -/
noncomputable def J_wing_span__design_gross_mass (design_gross_mass design_wing_loading wing_aspect_ratio : ℝ) : ℝ :=
  (((1 / 2) * (wing_aspect_ratio ^ ((1 / 2) : ℝ))) * ((wing_area design_gross_mass
    design_wing_loading) ^ ((-(1 / 2)) : ℝ))) * (dwa_dgmt design_wing_loading)

/-- Partial of `wing_span` with respect to `design_wing_loading` as set by `WingSize`, aviary/subsystems/geometry/gasp_based/wing.py:68 -/
noncomputable def J_wing_span__design_wing_loading (design_gross_mass design_wing_loading wing_aspect_ratio : ℝ) : ℝ :=
  (((1 / 2) * (wing_aspect_ratio ^ ((1 / 2) : ℝ))) * ((wing_area design_gross_mass
    design_wing_loading) ^ ((-(1 / 2)) : ℝ))) * (dwa_dwl design_gross_mass design_wing_loading)

theorem d_wing_area__design_gross_mass (design_gross_mass design_wing_loading : ℝ) (h0 : 0 <
    design_wing_loading) :
    HasDerivAt (fun t => out_wing_area t design_wing_loading) (J_wing_area__design_gross_mass design_wing_loading) design_gross_mass := by
  simp only [out_wing_area, J_wing_area__design_gross_mass, dwa_dgmt, wing_area]
  (apply hasDerivAt_of_eq; on_goal 1 => (repeat' comp_step))
  all_goals try comp_side
  all_goals try simp only [mul_zero, zero_mul, add_zero, zero_add, sub_zero, zero_sub, mul_one, one_mul]
  all_goals try push_cast
  all_goals comp_eq

theorem d_wing_area__design_wing_loading (design_gross_mass design_wing_loading : ℝ) (h0 : 0 <
    design_wing_loading) :
    HasDerivAt (fun t => out_wing_area design_gross_mass t) (J_wing_area__design_wing_loading design_gross_mass design_wing_loading) design_wing_loading := by
  simp only [out_wing_area, J_wing_area__design_wing_loading, dwa_dwl, wing_area]
  (apply hasDerivAt_of_eq; on_goal 1 => (repeat' comp_step))
  all_goals try comp_side
  all_goals try simp only [mul_zero, zero_mul, add_zero, zero_add, sub_zero, zero_sub, mul_one, one_mul]
  all_goals try push_cast
  all_goals comp_eq

theorem d_wing_span__design_gross_mass (design_gross_mass design_wing_loading wing_aspect_ratio :
    ℝ) (h0 : 0 < design_wing_loading) (h1 : 0 < wing_aspect_ratio) (h2 : 0 < design_gross_mass) :
    HasDerivAt (fun t => out_wing_span t design_wing_loading wing_aspect_ratio) (J_wing_span__design_gross_mass design_gross_mass design_wing_loading wing_aspect_ratio) design_gross_mass := by
  have e0 : ∀ x : ℝ, 0 < x → x ^ ((-(1 / 2)) : ℝ) = x ^ ((1 / 2) : ℝ) / x ^ 1 := fun x hx => rpow_down hx 1 (by norm_num)
  simp only [out_wing_span, J_wing_span__design_gross_mass, dwa_dgmt, wingspan, wing_area]
  (apply hasDerivAt_of_eq; on_goal 1 => (repeat' comp_step))
  all_goals try comp_side
  all_goals try simp (disch := first | assumption | positivity) only [mul_rpow, div_rpow, e0, div_mul_eq_div_div, div_half, inv_half]
  all_goals try simp only [mul_zero, zero_mul, add_zero, zero_add, sub_zero, zero_sub, mul_one, one_mul]
  all_goals try push_cast
  all_goals comp_eq

theorem d_wing_span__design_wing_loading (design_gross_mass design_wing_loading wing_aspect_ratio
    : ℝ) (h0 : 0 < design_wing_loading) (h1 : 0 < wing_aspect_ratio) (h2 : 0 < design_gross_mass)
    :
    HasDerivAt (fun t => out_wing_span design_gross_mass t wing_aspect_ratio) (J_wing_span__design_wing_loading design_gross_mass design_wing_loading wing_aspect_ratio) design_wing_loading := by
  have e0 : ∀ x : ℝ, 0 < x → x ^ ((-(1 / 2)) : ℝ) = x ^ ((1 / 2) : ℝ) / x ^ 1 := fun x hx => rpow_down hx 1 (by norm_num)
  simp only [out_wing_span, J_wing_span__design_wing_loading, dwa_dwl, wingspan, wing_area]
  (apply hasDerivAt_of_eq; on_goal 1 => (repeat' comp_step))
  all_goals try comp_side
  all_goals try simp (disch := first | assumption | positivity) only [mul_rpow, div_rpow, e0, div_mul_eq_div_div, div_half, inv_half]
  all_goals try simp only [mul_zero, zero_mul, add_zero, zero_add, sub_zero, zero_sub, mul_one, one_mul]
  all_goals try push_cast
  all_goals comp_eq

theorem d_wing_span__wing_aspect_ratio (design_gross_mass design_wing_loading wing_aspect_ratio :
    ℝ) (h0 : 0 < design_wing_loading) (h1 : 0 < wing_aspect_ratio) (h2 : 0 < design_gross_mass) :
    HasDerivAt (fun t => out_wing_span design_gross_mass design_wing_loading t) (J_wing_span__wing_aspect_ratio design_gross_mass design_wing_loading wing_aspect_ratio) wing_aspect_ratio := by
  have e0 : ∀ x : ℝ, 0 < x → x ^ ((-(1 / 2)) : ℝ) = x ^ ((1 / 2) : ℝ) / x ^ 1 := fun x hx => rpow_down hx 1 (by norm_num)
  simp only [out_wing_span, J_wing_span__wing_aspect_ratio, wingspan, wing_area]
  (apply hasDerivAt_of_eq; on_goal 1 => (repeat' comp_step))
  all_goals try comp_side
  all_goals try simp (disch := first | assumption | positivity) only [mul_rpow, div_rpow, e0, div_mul_eq_div_div, div_half, inv_half]
  all_goals try simp only [mul_zero, zero_mul, add_zero, zero_add, sub_zero, zero_sub, mul_one, one_mul]
  all_goals try push_cast
  all_goals comp_eq

/-- Every partial derivative set by `WingSize` is the derivative of its output. -/
theorem partials (design_gross_mass design_wing_loading wing_aspect_ratio : ℝ) (h0 : 0 <
    design_wing_loading) (h1 : 0 < wing_aspect_ratio) (h2 : 0 < design_gross_mass) :
    HasDerivAt (fun t => out_wing_area t design_wing_loading) (J_wing_area__design_gross_mass
      design_wing_loading) design_gross_mass ∧
    HasDerivAt (fun t => out_wing_area design_gross_mass t) (J_wing_area__design_wing_loading
      design_gross_mass design_wing_loading) design_wing_loading ∧
    HasDerivAt (fun t => out_wing_span t design_wing_loading wing_aspect_ratio)
      (J_wing_span__design_gross_mass design_gross_mass design_wing_loading wing_aspect_ratio)
      design_gross_mass ∧
    HasDerivAt (fun t => out_wing_span design_gross_mass t wing_aspect_ratio)
      (J_wing_span__design_wing_loading design_gross_mass design_wing_loading wing_aspect_ratio)
      design_wing_loading ∧
    HasDerivAt (fun t => out_wing_span design_gross_mass design_wing_loading t)
      (J_wing_span__wing_aspect_ratio design_gross_mass design_wing_loading wing_aspect_ratio)
      wing_aspect_ratio :=
  ⟨d_wing_area__design_gross_mass _ _ h0, d_wing_area__design_wing_loading _ _ h0,
    d_wing_span__design_gross_mass _ _ _ h0 h1 h2, d_wing_span__design_wing_loading _ _ _ h0 h1
    h2, d_wing_span__wing_aspect_ratio _ _ _ h0 h1 h2⟩

example : ∃ design_gross_mass design_wing_loading wing_aspect_ratio : ℝ,
      0 < design_wing_loading ∧
      0 < wing_aspect_ratio ∧
      0 < design_gross_mass :=
  ⟨1, 1, 1, by comp_example, by comp_example, by comp_example⟩

end Verif.Comp.GeometryGaspBasedWing.WingSize

namespace Verif.Comp.GeometryGaspBasedWing.WingVolume
open Real

/-- aviary/subsystems/geometry/gasp_based/wing.py:378 -/
noncomputable def tc_ratio_avg (wing_span wing_taper_ratio wing_thickness_to_chord_root fuselage_avg_diameter wing_thickness_to_chord_tip : ℝ) : ℝ :=
  (((wing_thickness_to_chord_root - ((fuselage_avg_diameter / wing_span) *
    (wing_thickness_to_chord_root - wing_thickness_to_chord_tip))) * (1 -
    ((fuselage_avg_diameter / wing_span) * (1 - wing_taper_ratio)))) + (wing_taper_ratio *
    wing_thickness_to_chord_tip)) / ((1 + wing_taper_ratio) - ((fuselage_avg_diameter /
    wing_span) * (1 - wing_taper_ratio)))

/-- aviary/subsystems/geometry/gasp_based/wing.py:384 -/
noncomputable def geometric_fuel_vol (wing_area wing_span wing_aspect_ratio wing_taper_ratio wing_thickness_to_chord_root fuselage_avg_diameter wing_thickness_to_chord_tip fuel_wing_fuel_fraction : ℝ) : ℝ :=
  ((((fuel_wing_fuel_fraction * (888889 / 1000000)) * (tc_ratio_avg wing_span wing_taper_ratio
    wing_thickness_to_chord_root fuselage_avg_diameter wing_thickness_to_chord_tip)) *
    (wing_area ^ ((3 / 2) : ℝ))) * ((2 * wing_taper_ratio) + 1)) / ((wing_aspect_ratio ^ ((1 /
    2) : ℝ)) * ((wing_taper_ratio + 1) ^ 2))

/-- aviary/subsystems/geometry/gasp_based/wing.py:403 -/
noncomputable def a (wing_span wing_thickness_to_chord_root fuselage_avg_diameter wing_thickness_to_chord_tip : ℝ) : ℝ :=
  wing_thickness_to_chord_root - ((fuselage_avg_diameter / wing_span) *
    (wing_thickness_to_chord_root - wing_thickness_to_chord_tip))

/-- aviary/subsystems/geometry/gasp_based/wing.py:404 -/
noncomputable def b (wing_span wing_taper_ratio fuselage_avg_diameter : ℝ) : ℝ :=
  1 - ((fuselage_avg_diameter / wing_span) * (1 - wing_taper_ratio))

/-- aviary/subsystems/geometry/gasp_based/wing.py:405 -/
noncomputable def c (wing_taper_ratio wing_thickness_to_chord_tip : ℝ) : ℝ :=
  wing_taper_ratio * wing_thickness_to_chord_tip

/-- aviary/subsystems/geometry/gasp_based/wing.py:406 -/
noncomputable def d (wing_span wing_taper_ratio fuselage_avg_diameter : ℝ) : ℝ :=
  (1 + wing_taper_ratio) - ((fuselage_avg_diameter / wing_span) * (1 - wing_taper_ratio))

/-- aviary/subsystems/geometry/gasp_based/wing.py:408 -/
noncomputable def dab_dcabw (wing_span wing_taper_ratio wing_thickness_to_chord_root fuselage_avg_diameter wing_thickness_to_chord_tip : ℝ) : ℝ :=
  (((a wing_span wing_thickness_to_chord_root fuselage_avg_diameter wing_thickness_to_chord_tip)
    * (wing_taper_ratio - 1)) / wing_span) + (((b wing_span wing_taper_ratio
    fuselage_avg_diameter) * (wing_thickness_to_chord_tip - wing_thickness_to_chord_root)) /
    wing_span)

/-- aviary/subsystems/geometry/gasp_based/wing.py:409 -/
noncomputable def dd_dcabw (wing_span wing_taper_ratio : ℝ) : ℝ :=
  (wing_taper_ratio - 1) / wing_span

/-- aviary/subsystems/geometry/gasp_based/wing.py:410 -/
noncomputable def dab_dwingspan (wing_span wing_taper_ratio wing_thickness_to_chord_root fuselage_avg_diameter wing_thickness_to_chord_tip : ℝ) : ℝ :=
  ((((a wing_span wing_thickness_to_chord_root fuselage_avg_diameter
    wing_thickness_to_chord_tip) * fuselage_avg_diameter) * (1 - wing_taper_ratio)) / (wing_span
    ^ 2)) + ((((b wing_span wing_taper_ratio fuselage_avg_diameter) * fuselage_avg_diameter) *
    (wing_thickness_to_chord_root - wing_thickness_to_chord_tip)) / (wing_span ^ 2))

/-- aviary/subsystems/geometry/gasp_based/wing.py:414 -/
noncomputable def dd_dwingspan (wing_span wing_taper_ratio fuselage_avg_diameter : ℝ) : ℝ :=
  (fuselage_avg_diameter * (1 - wing_taper_ratio)) / (wing_span ^ 2)

/-- aviary/subsystems/geometry/gasp_based/wing.py:415 -/
noncomputable def dabc_dtr (wing_span wing_thickness_to_chord_root fuselage_avg_diameter wing_thickness_to_chord_tip : ℝ) : ℝ :=
  (((a wing_span wing_thickness_to_chord_root fuselage_avg_diameter wing_thickness_to_chord_tip)
    * fuselage_avg_diameter) / wing_span) + wing_thickness_to_chord_tip

/-- aviary/subsystems/geometry/gasp_based/wing.py:416 -/
noncomputable def dd_dtr (wing_span fuselage_avg_diameter : ℝ) : ℝ :=
  1 + (fuselage_avg_diameter / wing_span)

/-- aviary/subsystems/geometry/gasp_based/wing.py:418 -/
noncomputable def dtca_dtc_ratio_root (wing_span wing_taper_ratio fuselage_avg_diameter : ℝ) : ℝ :=
  ((1 - (fuselage_avg_diameter / wing_span)) * (b wing_span wing_taper_ratio
    fuselage_avg_diameter)) / (d wing_span wing_taper_ratio fuselage_avg_diameter)

/-- aviary/subsystems/geometry/gasp_based/wing.py:419 -/
noncomputable def dtca_dcabw (wing_span wing_taper_ratio wing_thickness_to_chord_root fuselage_avg_diameter wing_thickness_to_chord_tip : ℝ) : ℝ :=
  (((d wing_span wing_taper_ratio fuselage_avg_diameter) * (dab_dcabw wing_span wing_taper_ratio
    wing_thickness_to_chord_root fuselage_avg_diameter wing_thickness_to_chord_tip)) - ((((a
    wing_span wing_thickness_to_chord_root fuselage_avg_diameter wing_thickness_to_chord_tip) *
    (b wing_span wing_taper_ratio fuselage_avg_diameter)) + (c wing_taper_ratio
    wing_thickness_to_chord_tip)) * (dd_dcabw wing_span wing_taper_ratio))) / ((d wing_span
    wing_taper_ratio fuselage_avg_diameter) ^ 2)

/-- aviary/subsystems/geometry/gasp_based/wing.py:420 -/
noncomputable def dtca_dwingspan (wing_span wing_taper_ratio wing_thickness_to_chord_root fuselage_avg_diameter wing_thickness_to_chord_tip : ℝ) : ℝ :=
  (((d wing_span wing_taper_ratio fuselage_avg_diameter) * (dab_dwingspan wing_span
    wing_taper_ratio wing_thickness_to_chord_root fuselage_avg_diameter
    wing_thickness_to_chord_tip)) - ((((a wing_span wing_thickness_to_chord_root
    fuselage_avg_diameter wing_thickness_to_chord_tip) * (b wing_span wing_taper_ratio
    fuselage_avg_diameter)) + (c wing_taper_ratio wing_thickness_to_chord_tip)) * (dd_dwingspan
    wing_span wing_taper_ratio fuselage_avg_diameter))) / ((d wing_span wing_taper_ratio
    fuselage_avg_diameter) ^ 2)

/-- aviary/subsystems/geometry/gasp_based/wing.py:421 -/
noncomputable def dtca_dtc_ratio_tip (wing_span wing_taper_ratio fuselage_avg_diameter : ℝ) : ℝ :=
  (((fuselage_avg_diameter / wing_span) * (b wing_span wing_taper_ratio fuselage_avg_diameter))
    + wing_taper_ratio) / (d wing_span wing_taper_ratio fuselage_avg_diameter)

/-- aviary/subsystems/geometry/gasp_based/wing.py:422 -/
noncomputable def dtca_dtr (wing_span wing_taper_ratio wing_thickness_to_chord_root fuselage_avg_diameter wing_thickness_to_chord_tip : ℝ) : ℝ :=
  (((d wing_span wing_taper_ratio fuselage_avg_diameter) * (dabc_dtr wing_span
    wing_thickness_to_chord_root fuselage_avg_diameter wing_thickness_to_chord_tip)) - ((((a
    wing_span wing_thickness_to_chord_root fuselage_avg_diameter wing_thickness_to_chord_tip) *
    (b wing_span wing_taper_ratio fuselage_avg_diameter)) + (c wing_taper_ratio
    wing_thickness_to_chord_tip)) * (dd_dtr wing_span fuselage_avg_diameter))) / ((d wing_span
    wing_taper_ratio fuselage_avg_diameter) ^ 2)

/-- aviary/subsystems/geometry/gasp_based/wing.py:425 -/
noncomputable def num (wing_area wing_span wing_taper_ratio wing_thickness_to_chord_root fuselage_avg_diameter wing_thickness_to_chord_tip fuel_wing_fuel_fraction : ℝ) : ℝ :=
  (((fuel_wing_fuel_fraction * (888889 / 1000000)) * (tc_ratio_avg wing_span wing_taper_ratio
    wing_thickness_to_chord_root fuselage_avg_diameter wing_thickness_to_chord_tip)) *
    (wing_area ^ ((3 / 2) : ℝ))) * ((2 * wing_taper_ratio) + 1)

/-- aviary/subsystems/geometry/gasp_based/wing.py:426 -/
noncomputable def den (wing_aspect_ratio wing_taper_ratio : ℝ) : ℝ :=
  (wing_aspect_ratio ^ ((1 / 2) : ℝ)) * ((wing_taper_ratio + 1) ^ 2)

/-- aviary/subsystems/geometry/gasp_based/wing.py:427 -/
noncomputable def dnum_dtr (wing_area wing_span wing_taper_ratio wing_thickness_to_chord_root fuselage_avg_diameter wing_thickness_to_chord_tip fuel_wing_fuel_fraction : ℝ) : ℝ :=
  ((((fuel_wing_fuel_fraction * (888889 / 1000000)) * (dtca_dtr wing_span wing_taper_ratio
    wing_thickness_to_chord_root fuselage_avg_diameter wing_thickness_to_chord_tip)) *
    (wing_area ^ ((3 / 2) : ℝ))) * ((2 * wing_taper_ratio) + 1)) + ((((fuel_wing_fuel_fraction *
    (888889 / 1000000)) * (tc_ratio_avg wing_span wing_taper_ratio wing_thickness_to_chord_root
    fuselage_avg_diameter wing_thickness_to_chord_tip)) * (wing_area ^ ((3 / 2) : ℝ))) * 2)

/-- aviary/subsystems/geometry/gasp_based/wing.py:431 -/
noncomputable def dden_dtr (wing_aspect_ratio wing_taper_ratio : ℝ) : ℝ :=
  (2 * (wing_aspect_ratio ^ ((1 / 2) : ℝ))) * (wing_taper_ratio + 1)

/-- Output `fuel_wing_volume_geometric_max` of `WingVolume.compute`, aviary/subsystems/geometry/gasp_based/wing.py:387 -/
noncomputable def out_fuel_wing_volume_geometric_max (wing_area wing_span wing_aspect_ratio wing_taper_ratio wing_thickness_to_chord_root fuselage_avg_diameter wing_thickness_to_chord_tip fuel_wing_fuel_fraction : ℝ) : ℝ :=
  geometric_fuel_vol wing_area wing_span wing_aspect_ratio wing_taper_ratio
    wing_thickness_to_chord_root fuselage_avg_diameter wing_thickness_to_chord_tip
    fuel_wing_fuel_fraction

/-- Partial of `fuel_wing_volume_geometric_max` with respect to `fuel_wing_fuel_fraction` as set by `WingVolume`, aviary/subsystems/geometry/gasp_based/wing.py:433 -/
noncomputable def J_fuel_wing_volume_geometric_max__fuel_wing_fuel_fraction (wing_area wing_span wing_aspect_ratio wing_taper_ratio wing_thickness_to_chord_root fuselage_avg_diameter wing_thickness_to_chord_tip : ℝ) : ℝ :=
  ((((888889 / 1000000) * (tc_ratio_avg wing_span wing_taper_ratio wing_thickness_to_chord_root
    fuselage_avg_diameter wing_thickness_to_chord_tip)) * (wing_area ^ ((3 / 2) : ℝ))) * ((2 *
    wing_taper_ratio) + 1)) / ((wing_aspect_ratio ^ ((1 / 2) : ℝ)) * ((wing_taper_ratio + 1) ^
    2))

/-- Partial of `fuel_wing_volume_geometric_max` with respect to `wing_area` as set by `WingVolume`, aviary/subsystems/geometry/gasp_based/wing.py:436 -/
noncomputable def J_fuel_wing_volume_geometric_max__wing_area (wing_area wing_span wing_aspect_ratio wing_taper_ratio wing_thickness_to_chord_root fuselage_avg_diameter wing_thickness_to_chord_tip fuel_wing_fuel_fraction : ℝ) : ℝ :=
  ((3 / 2) * ((((fuel_wing_fuel_fraction * (888889 / 1000000)) * (tc_ratio_avg wing_span
    wing_taper_ratio wing_thickness_to_chord_root fuselage_avg_diameter
    wing_thickness_to_chord_tip)) * (wing_area ^ ((1 / 2) : ℝ))) * ((2 * wing_taper_ratio) +
    1))) / ((wing_aspect_ratio ^ ((1 / 2) : ℝ)) * ((wing_taper_ratio + 1) ^ 2))

/-- Partial of `fuel_wing_volume_geometric_max` with respect to `wing_taper_ratio` as set by `WingVolume`, aviary/subsystems/geometry/gasp_based/wing.py:447 -/
noncomputable def J_fuel_wing_volume_geometric_max__wing_taper_ratio (wing_area wing_span wing_aspect_ratio wing_taper_ratio wing_thickness_to_chord_root fuselage_avg_diameter wing_thickness_to_chord_tip fuel_wing_fuel_fraction : ℝ) : ℝ :=
  (((den wing_aspect_ratio wing_taper_ratio) * (dnum_dtr wing_area wing_span wing_taper_ratio
    wing_thickness_to_chord_root fuselage_avg_diameter wing_thickness_to_chord_tip
    fuel_wing_fuel_fraction)) - ((num wing_area wing_span wing_taper_ratio
    wing_thickness_to_chord_root fuselage_avg_diameter wing_thickness_to_chord_tip
    fuel_wing_fuel_fraction) * (dden_dtr wing_aspect_ratio wing_taper_ratio))) / ((den
    wing_aspect_ratio wing_taper_ratio) ^ 2)

/-- Partial of `fuel_wing_volume_geometric_max` with respect to `wing_aspect_ratio` as set by `WingVolume`, aviary/subsystems/geometry/gasp_based/wing.py:450 -/
noncomputable def J_fuel_wing_volume_geometric_max__wing_aspect_ratio (wing_area wing_span wing_aspect_ratio wing_taper_ratio wing_thickness_to_chord_root fuselage_avg_diameter wing_thickness_to_chord_tip fuel_wing_fuel_fraction : ℝ) : ℝ :=
  ((-(1 / 2)) * ((((fuel_wing_fuel_fraction * (888889 / 1000000)) * (tc_ratio_avg wing_span
    wing_taper_ratio wing_thickness_to_chord_root fuselage_avg_diameter
    wing_thickness_to_chord_tip)) * (wing_area ^ ((3 / 2) : ℝ))) * ((2 * wing_taper_ratio) +
    1))) / ((wing_aspect_ratio ^ ((3 / 2) : ℝ)) * ((wing_taper_ratio + 1) ^ 2))

/-- Partial of `fuel_wing_volume_geometric_max` with respect to `wing_thickness_to_chord_root` as set by `WingVolume`, aviary/subsystems/geometry/gasp_based/wing.py:461 -/
noncomputable def J_fuel_wing_volume_geometric_max__wing_thickness_to_chord_root (wing_area wing_span wing_aspect_ratio wing_taper_ratio fuselage_avg_diameter fuel_wing_fuel_fraction : ℝ) : ℝ :=
  ((((fuel_wing_fuel_fraction * (888889 / 1000000)) * (dtca_dtc_ratio_root wing_span
    wing_taper_ratio fuselage_avg_diameter)) * (wing_area ^ ((3 / 2) : ℝ))) * ((2 *
    wing_taper_ratio) + 1)) / ((wing_aspect_ratio ^ ((1 / 2) : ℝ)) * ((wing_taper_ratio + 1) ^
    2))

/-- Partial of `fuel_wing_volume_geometric_max` with respect to `fuselage_avg_diameter` as set by `WingVolume`, aviary/subsystems/geometry/gasp_based/wing.py:468 -/
noncomputable def J_fuel_wing_volume_geometric_max__fuselage_avg_diameter (wing_area wing_span wing_aspect_ratio wing_taper_ratio wing_thickness_to_chord_root fuselage_avg_diameter wing_thickness_to_chord_tip fuel_wing_fuel_fraction : ℝ) : ℝ :=
  ((((fuel_wing_fuel_fraction * (888889 / 1000000)) * (dtca_dcabw wing_span wing_taper_ratio
    wing_thickness_to_chord_root fuselage_avg_diameter wing_thickness_to_chord_tip)) *
    (wing_area ^ ((3 / 2) : ℝ))) * ((2 * wing_taper_ratio) + 1)) / ((wing_aspect_ratio ^ ((1 /
    2) : ℝ)) * ((wing_taper_ratio + 1) ^ 2))

/-- Partial of `fuel_wing_volume_geometric_max` with respect to `wing_span` as set by `WingVolume`, aviary/subsystems/geometry/gasp_based/wing.py:471 -/
noncomputable def J_fuel_wing_volume_geometric_max__wing_span (wing_area wing_span wing_aspect_ratio wing_taper_ratio wing_thickness_to_chord_root fuselage_avg_diameter wing_thickness_to_chord_tip fuel_wing_fuel_fraction : ℝ) : ℝ :=
  ((((fuel_wing_fuel_fraction * (888889 / 1000000)) * (dtca_dwingspan wing_span wing_taper_ratio
    wing_thickness_to_chord_root fuselage_avg_diameter wing_thickness_to_chord_tip)) *
    (wing_area ^ ((3 / 2) : ℝ))) * ((2 * wing_taper_ratio) + 1)) / ((wing_aspect_ratio ^ ((1 /
    2) : ℝ)) * ((wing_taper_ratio + 1) ^ 2))

/-- Partial of `fuel_wing_volume_geometric_max` with respect to `wing_thickness_to_chord_tip` as set by `WingVolume`, aviary/subsystems/geometry/gasp_based/wing.py:474 -/
noncomputable def J_fuel_wing_volume_geometric_max__wing_thickness_to_chord_tip (wing_area wing_span wing_aspect_ratio wing_taper_ratio fuselage_avg_diameter fuel_wing_fuel_fraction : ℝ) : ℝ :=
  ((((fuel_wing_fuel_fraction * (888889 / 1000000)) * (dtca_dtc_ratio_tip wing_span
    wing_taper_ratio fuselage_avg_diameter)) * (wing_area ^ ((3 / 2) : ℝ))) * ((2 *
    wing_taper_ratio) + 1)) / ((wing_aspect_ratio ^ ((1 / 2) : ℝ)) * ((wing_taper_ratio + 1) ^
    2))

theorem d_fuel_wing_volume_geometric_max__wing_area (wing_area wing_span wing_aspect_ratio
    wing_taper_ratio wing_thickness_to_chord_root fuselage_avg_diameter
    wing_thickness_to_chord_tip fuel_wing_fuel_fraction : ℝ) (h0 : 0 < wing_span) (h1 : (1 +
    wing_taper_ratio) - ((fuselage_avg_diameter / wing_span) * (1 - wing_taper_ratio)) ≠ 0) (h2 :
    0 < wing_area) (h3 : 0 < wing_aspect_ratio) (h4 : 0 < wing_taper_ratio) :
    HasDerivAt (fun t => out_fuel_wing_volume_geometric_max t wing_span wing_aspect_ratio wing_taper_ratio wing_thickness_to_chord_root fuselage_avg_diameter wing_thickness_to_chord_tip fuel_wing_fuel_fraction) (J_fuel_wing_volume_geometric_max__wing_area wing_area wing_span wing_aspect_ratio wing_taper_ratio wing_thickness_to_chord_root fuselage_avg_diameter wing_thickness_to_chord_tip fuel_wing_fuel_fraction) wing_area := by
  have e0 : ∀ x : ℝ, 0 < x → x ^ ((3 / 2) : ℝ) = x ^ ((1 / 2) : ℝ) * x ^ 1 := fun x hx => rpow_up hx 1 (by norm_num)
  simp only [out_fuel_wing_volume_geometric_max, J_fuel_wing_volume_geometric_max__wing_area, geometric_fuel_vol, tc_ratio_avg]
  (apply hasDerivAt_of_eq; on_goal 1 => (repeat' comp_step))
  all_goals try comp_side
  all_goals try simp (disch := first | assumption | positivity) only [e0, div_mul_eq_div_div, div_half, inv_half]
  all_goals try simp only [mul_zero, zero_mul, add_zero, zero_add, sub_zero, zero_sub, mul_one, one_mul]
  all_goals try push_cast
  all_goals comp_eq

theorem d_fuel_wing_volume_geometric_max__wing_span (wing_area wing_span wing_aspect_ratio
    wing_taper_ratio wing_thickness_to_chord_root fuselage_avg_diameter
    wing_thickness_to_chord_tip fuel_wing_fuel_fraction : ℝ) (h0 : 0 < wing_span) (h1 : (1 +
    wing_taper_ratio) - ((fuselage_avg_diameter / wing_span) * (1 - wing_taper_ratio)) ≠ 0) (h2 :
    0 < wing_area) (h3 : 0 < wing_aspect_ratio) (h4 : 0 < wing_taper_ratio) :
    HasDerivAt (fun t => out_fuel_wing_volume_geometric_max wing_area t wing_aspect_ratio wing_taper_ratio wing_thickness_to_chord_root fuselage_avg_diameter wing_thickness_to_chord_tip fuel_wing_fuel_fraction) (J_fuel_wing_volume_geometric_max__wing_span wing_area wing_span wing_aspect_ratio wing_taper_ratio wing_thickness_to_chord_root fuselage_avg_diameter wing_thickness_to_chord_tip fuel_wing_fuel_fraction) wing_span := by
  have e0 : ∀ x : ℝ, 0 < x → x ^ ((3 / 2) : ℝ) = x ^ ((1 / 2) : ℝ) * x ^ 1 := fun x hx => rpow_up hx 1 (by norm_num)
  simp only [out_fuel_wing_volume_geometric_max, J_fuel_wing_volume_geometric_max__wing_span, dtca_dwingspan, dd_dwingspan, c, dab_dwingspan, b, a, d, geometric_fuel_vol, tc_ratio_avg]
  (apply hasDerivAt_of_eq; on_goal 1 => (repeat' comp_step))
  all_goals try comp_side
  all_goals try simp (disch := first | assumption | positivity) only [e0, div_mul_eq_div_div, div_half, inv_half]
  all_goals try simp only [mul_zero, zero_mul, add_zero, zero_add, sub_zero, zero_sub, mul_one, one_mul]
  all_goals try push_cast
  all_goals comp_eq

theorem d_fuel_wing_volume_geometric_max__wing_aspect_ratio (wing_area wing_span wing_aspect_ratio
    wing_taper_ratio wing_thickness_to_chord_root fuselage_avg_diameter
    wing_thickness_to_chord_tip fuel_wing_fuel_fraction : ℝ) (h0 : 0 < wing_span) (h1 : (1 +
    wing_taper_ratio) - ((fuselage_avg_diameter / wing_span) * (1 - wing_taper_ratio)) ≠ 0) (h2 :
    0 < wing_area) (h3 : 0 < wing_aspect_ratio) (h4 : 0 < wing_taper_ratio) :
    HasDerivAt (fun t => out_fuel_wing_volume_geometric_max wing_area wing_span t wing_taper_ratio wing_thickness_to_chord_root fuselage_avg_diameter wing_thickness_to_chord_tip fuel_wing_fuel_fraction) (J_fuel_wing_volume_geometric_max__wing_aspect_ratio wing_area wing_span wing_aspect_ratio wing_taper_ratio wing_thickness_to_chord_root fuselage_avg_diameter wing_thickness_to_chord_tip fuel_wing_fuel_fraction) wing_aspect_ratio := by
  have e0 : ∀ x : ℝ, 0 < x → x ^ ((3 / 2) : ℝ) = x ^ ((1 / 2) : ℝ) * x ^ 1 := fun x hx => rpow_up hx 1 (by norm_num)
  simp only [out_fuel_wing_volume_geometric_max, J_fuel_wing_volume_geometric_max__wing_aspect_ratio, geometric_fuel_vol, tc_ratio_avg]
  (apply hasDerivAt_of_eq; on_goal 1 => (repeat' comp_step))
  all_goals try comp_side
  all_goals try simp (disch := first | assumption | positivity) only [e0, div_mul_eq_div_div, div_half, inv_half]
  all_goals try simp only [mul_zero, zero_mul, add_zero, zero_add, sub_zero, zero_sub, mul_one, one_mul]
  all_goals try push_cast
  all_goals comp_eq

theorem d_fuel_wing_volume_geometric_max__wing_taper_ratio (wing_area wing_span wing_aspect_ratio
    wing_taper_ratio wing_thickness_to_chord_root fuselage_avg_diameter
    wing_thickness_to_chord_tip fuel_wing_fuel_fraction : ℝ) (h0 : 0 < wing_span) (h1 : (1 +
    wing_taper_ratio) - ((fuselage_avg_diameter / wing_span) * (1 - wing_taper_ratio)) ≠ 0) (h2 :
    0 < wing_area) (h3 : 0 < wing_aspect_ratio) (h4 : 0 < wing_taper_ratio) :
    HasDerivAt (fun t => out_fuel_wing_volume_geometric_max wing_area wing_span wing_aspect_ratio t wing_thickness_to_chord_root fuselage_avg_diameter wing_thickness_to_chord_tip fuel_wing_fuel_fraction) (J_fuel_wing_volume_geometric_max__wing_taper_ratio wing_area wing_span wing_aspect_ratio wing_taper_ratio wing_thickness_to_chord_root fuselage_avg_diameter wing_thickness_to_chord_tip fuel_wing_fuel_fraction) wing_taper_ratio := by
  have e0 : ∀ x : ℝ, 0 < x → x ^ ((3 / 2) : ℝ) = x ^ ((1 / 2) : ℝ) * x ^ 1 := fun x hx => rpow_up hx 1 (by norm_num)
  simp only [out_fuel_wing_volume_geometric_max, J_fuel_wing_volume_geometric_max__wing_taper_ratio, dden_dtr, num, dnum_dtr, dtca_dtr, dd_dtr, c, b, dabc_dtr, a, d, den, geometric_fuel_vol, tc_ratio_avg]
  (apply hasDerivAt_of_eq; on_goal 1 => (repeat' comp_step))
  all_goals try comp_side
  all_goals try simp (disch := first | assumption | positivity) only [e0, div_mul_eq_div_div, div_half, inv_half]
  all_goals try simp only [mul_zero, zero_mul, add_zero, zero_add, sub_zero, zero_sub, mul_one, one_mul]
  all_goals try push_cast
  all_goals comp_eq

theorem d_fuel_wing_volume_geometric_max__wing_thickness_to_chord_root (wing_area wing_span
    wing_aspect_ratio wing_taper_ratio wing_thickness_to_chord_root fuselage_avg_diameter
    wing_thickness_to_chord_tip fuel_wing_fuel_fraction : ℝ) (h0 : 0 < wing_span) (h1 : (1 +
    wing_taper_ratio) - ((fuselage_avg_diameter / wing_span) * (1 - wing_taper_ratio)) ≠ 0) (h2 :
    0 < wing_area) (h3 : 0 < wing_aspect_ratio) (h4 : 0 < wing_taper_ratio) :
    HasDerivAt (fun t => out_fuel_wing_volume_geometric_max wing_area wing_span wing_aspect_ratio wing_taper_ratio t fuselage_avg_diameter wing_thickness_to_chord_tip fuel_wing_fuel_fraction) (J_fuel_wing_volume_geometric_max__wing_thickness_to_chord_root wing_area wing_span wing_aspect_ratio wing_taper_ratio fuselage_avg_diameter fuel_wing_fuel_fraction) wing_thickness_to_chord_root := by
  have e0 : ∀ x : ℝ, 0 < x → x ^ ((3 / 2) : ℝ) = x ^ ((1 / 2) : ℝ) * x ^ 1 := fun x hx => rpow_up hx 1 (by norm_num)
  simp only [out_fuel_wing_volume_geometric_max, J_fuel_wing_volume_geometric_max__wing_thickness_to_chord_root, dtca_dtc_ratio_root, d, b, geometric_fuel_vol, tc_ratio_avg]
  (apply hasDerivAt_of_eq; on_goal 1 => (repeat' comp_step))
  all_goals try comp_side
  all_goals try simp (disch := first | assumption | positivity) only [e0, div_mul_eq_div_div, div_half, inv_half]
  all_goals try simp only [mul_zero, zero_mul, add_zero, zero_add, sub_zero, zero_sub, mul_one, one_mul]
  all_goals try push_cast
  all_goals comp_eq

theorem d_fuel_wing_volume_geometric_max__fuselage_avg_diameter (wing_area wing_span
    wing_aspect_ratio wing_taper_ratio wing_thickness_to_chord_root fuselage_avg_diameter
    wing_thickness_to_chord_tip fuel_wing_fuel_fraction : ℝ) (h0 : 0 < wing_span) (h1 : (1 +
    wing_taper_ratio) - ((fuselage_avg_diameter / wing_span) * (1 - wing_taper_ratio)) ≠ 0) (h2 :
    0 < wing_area) (h3 : 0 < wing_aspect_ratio) (h4 : 0 < wing_taper_ratio) :
    HasDerivAt (fun t => out_fuel_wing_volume_geometric_max wing_area wing_span wing_aspect_ratio wing_taper_ratio wing_thickness_to_chord_root t wing_thickness_to_chord_tip fuel_wing_fuel_fraction) (J_fuel_wing_volume_geometric_max__fuselage_avg_diameter wing_area wing_span wing_aspect_ratio wing_taper_ratio wing_thickness_to_chord_root fuselage_avg_diameter wing_thickness_to_chord_tip fuel_wing_fuel_fraction) fuselage_avg_diameter := by
  have e0 : ∀ x : ℝ, 0 < x → x ^ ((3 / 2) : ℝ) = x ^ ((1 / 2) : ℝ) * x ^ 1 := fun x hx => rpow_up hx 1 (by norm_num)
  simp only [out_fuel_wing_volume_geometric_max, J_fuel_wing_volume_geometric_max__fuselage_avg_diameter, dtca_dcabw, dd_dcabw, c, dab_dcabw, b, a, d, geometric_fuel_vol, tc_ratio_avg]
  (apply hasDerivAt_of_eq; on_goal 1 => (repeat' comp_step))
  all_goals try comp_side
  all_goals try simp (disch := first | assumption | positivity) only [e0, div_mul_eq_div_div, div_half, inv_half]
  all_goals try simp only [mul_zero, zero_mul, add_zero, zero_add, sub_zero, zero_sub, mul_one, one_mul]
  all_goals try push_cast
  all_goals comp_eq

theorem d_fuel_wing_volume_geometric_max__wing_thickness_to_chord_tip (wing_area wing_span
    wing_aspect_ratio wing_taper_ratio wing_thickness_to_chord_root fuselage_avg_diameter
    wing_thickness_to_chord_tip fuel_wing_fuel_fraction : ℝ) (h0 : 0 < wing_span) (h1 : (1 +
    wing_taper_ratio) - ((fuselage_avg_diameter / wing_span) * (1 - wing_taper_ratio)) ≠ 0) (h2 :
    0 < wing_area) (h3 : 0 < wing_aspect_ratio) (h4 : 0 < wing_taper_ratio) :
    HasDerivAt (fun t => out_fuel_wing_volume_geometric_max wing_area wing_span wing_aspect_ratio wing_taper_ratio wing_thickness_to_chord_root fuselage_avg_diameter t fuel_wing_fuel_fraction) (J_fuel_wing_volume_geometric_max__wing_thickness_to_chord_tip wing_area wing_span wing_aspect_ratio wing_taper_ratio fuselage_avg_diameter fuel_wing_fuel_fraction) wing_thickness_to_chord_tip := by
  have e0 : ∀ x : ℝ, 0 < x → x ^ ((3 / 2) : ℝ) = x ^ ((1 / 2) : ℝ) * x ^ 1 := fun x hx => rpow_up hx 1 (by norm_num)
  simp only [out_fuel_wing_volume_geometric_max, J_fuel_wing_volume_geometric_max__wing_thickness_to_chord_tip, dtca_dtc_ratio_tip, d, b, geometric_fuel_vol, tc_ratio_avg]
  (apply hasDerivAt_of_eq; on_goal 1 => (repeat' comp_step))
  all_goals try comp_side
  all_goals try simp (disch := first | assumption | positivity) only [e0, div_mul_eq_div_div, div_half, inv_half]
  all_goals try simp only [mul_zero, zero_mul, add_zero, zero_add, sub_zero, zero_sub, mul_one, one_mul]
  all_goals try push_cast
  all_goals comp_eq

theorem d_fuel_wing_volume_geometric_max__fuel_wing_fuel_fraction (wing_area wing_span
    wing_aspect_ratio wing_taper_ratio wing_thickness_to_chord_root fuselage_avg_diameter
    wing_thickness_to_chord_tip fuel_wing_fuel_fraction : ℝ) (h0 : 0 < wing_span) (h1 : (1 +
    wing_taper_ratio) - ((fuselage_avg_diameter / wing_span) * (1 - wing_taper_ratio)) ≠ 0) (h2 :
    0 < wing_area) (h3 : 0 < wing_aspect_ratio) (h4 : 0 < wing_taper_ratio) :
    HasDerivAt (fun t => out_fuel_wing_volume_geometric_max wing_area wing_span wing_aspect_ratio wing_taper_ratio wing_thickness_to_chord_root fuselage_avg_diameter wing_thickness_to_chord_tip t) (J_fuel_wing_volume_geometric_max__fuel_wing_fuel_fraction wing_area wing_span wing_aspect_ratio wing_taper_ratio wing_thickness_to_chord_root fuselage_avg_diameter wing_thickness_to_chord_tip) fuel_wing_fuel_fraction := by
  have e0 : ∀ x : ℝ, 0 < x → x ^ ((3 / 2) : ℝ) = x ^ ((1 / 2) : ℝ) * x ^ 1 := fun x hx => rpow_up hx 1 (by norm_num)
  simp only [out_fuel_wing_volume_geometric_max, J_fuel_wing_volume_geometric_max__fuel_wing_fuel_fraction, geometric_fuel_vol, tc_ratio_avg]
  (apply hasDerivAt_of_eq; on_goal 1 => (repeat' comp_step))
  all_goals try comp_side
  all_goals try simp (disch := first | assumption | positivity) only [e0, div_mul_eq_div_div, div_half, inv_half]
  all_goals try simp only [mul_zero, zero_mul, add_zero, zero_add, sub_zero, zero_sub, mul_one, one_mul]
  all_goals try push_cast
  all_goals comp_eq

/-- Every partial derivative set by `WingVolume` is the derivative of its output. -/
theorem partials (wing_area wing_span wing_aspect_ratio wing_taper_ratio
    wing_thickness_to_chord_root fuselage_avg_diameter wing_thickness_to_chord_tip
    fuel_wing_fuel_fraction : ℝ) (h0 : 0 < wing_span) (h1 : (1 + wing_taper_ratio) -
    ((fuselage_avg_diameter / wing_span) * (1 - wing_taper_ratio)) ≠ 0) (h2 : 0 < wing_area) (h3 :
    0 < wing_aspect_ratio) (h4 : 0 < wing_taper_ratio) :
    HasDerivAt (fun t => out_fuel_wing_volume_geometric_max t wing_span wing_aspect_ratio
      wing_taper_ratio wing_thickness_to_chord_root fuselage_avg_diameter
      wing_thickness_to_chord_tip fuel_wing_fuel_fraction)
      (J_fuel_wing_volume_geometric_max__wing_area wing_area wing_span wing_aspect_ratio
      wing_taper_ratio wing_thickness_to_chord_root fuselage_avg_diameter
      wing_thickness_to_chord_tip fuel_wing_fuel_fraction) wing_area ∧
    HasDerivAt (fun t => out_fuel_wing_volume_geometric_max wing_area t wing_aspect_ratio
      wing_taper_ratio wing_thickness_to_chord_root fuselage_avg_diameter
      wing_thickness_to_chord_tip fuel_wing_fuel_fraction)
      (J_fuel_wing_volume_geometric_max__wing_span wing_area wing_span wing_aspect_ratio
      wing_taper_ratio wing_thickness_to_chord_root fuselage_avg_diameter
      wing_thickness_to_chord_tip fuel_wing_fuel_fraction) wing_span ∧
    HasDerivAt (fun t => out_fuel_wing_volume_geometric_max wing_area wing_span t wing_taper_ratio
      wing_thickness_to_chord_root fuselage_avg_diameter wing_thickness_to_chord_tip
      fuel_wing_fuel_fraction) (J_fuel_wing_volume_geometric_max__wing_aspect_ratio wing_area
      wing_span wing_aspect_ratio wing_taper_ratio wing_thickness_to_chord_root
      fuselage_avg_diameter wing_thickness_to_chord_tip fuel_wing_fuel_fraction) wing_aspect_ratio ∧
    HasDerivAt (fun t => out_fuel_wing_volume_geometric_max wing_area wing_span wing_aspect_ratio t
      wing_thickness_to_chord_root fuselage_avg_diameter wing_thickness_to_chord_tip
      fuel_wing_fuel_fraction) (J_fuel_wing_volume_geometric_max__wing_taper_ratio wing_area
      wing_span wing_aspect_ratio wing_taper_ratio wing_thickness_to_chord_root
      fuselage_avg_diameter wing_thickness_to_chord_tip fuel_wing_fuel_fraction) wing_taper_ratio ∧
    HasDerivAt (fun t => out_fuel_wing_volume_geometric_max wing_area wing_span wing_aspect_ratio
      wing_taper_ratio t fuselage_avg_diameter wing_thickness_to_chord_tip
      fuel_wing_fuel_fraction) (J_fuel_wing_volume_geometric_max__wing_thickness_to_chord_root
      wing_area wing_span wing_aspect_ratio wing_taper_ratio fuselage_avg_diameter
      fuel_wing_fuel_fraction) wing_thickness_to_chord_root ∧
    HasDerivAt (fun t => out_fuel_wing_volume_geometric_max wing_area wing_span wing_aspect_ratio
      wing_taper_ratio wing_thickness_to_chord_root t wing_thickness_to_chord_tip
      fuel_wing_fuel_fraction) (J_fuel_wing_volume_geometric_max__fuselage_avg_diameter wing_area
      wing_span wing_aspect_ratio wing_taper_ratio wing_thickness_to_chord_root
      fuselage_avg_diameter wing_thickness_to_chord_tip fuel_wing_fuel_fraction)
      fuselage_avg_diameter ∧
    HasDerivAt (fun t => out_fuel_wing_volume_geometric_max wing_area wing_span wing_aspect_ratio
      wing_taper_ratio wing_thickness_to_chord_root fuselage_avg_diameter t
      fuel_wing_fuel_fraction) (J_fuel_wing_volume_geometric_max__wing_thickness_to_chord_tip
      wing_area wing_span wing_aspect_ratio wing_taper_ratio fuselage_avg_diameter
      fuel_wing_fuel_fraction) wing_thickness_to_chord_tip ∧
    HasDerivAt (fun t => out_fuel_wing_volume_geometric_max wing_area wing_span wing_aspect_ratio
      wing_taper_ratio wing_thickness_to_chord_root fuselage_avg_diameter
      wing_thickness_to_chord_tip t) (J_fuel_wing_volume_geometric_max__fuel_wing_fuel_fraction
      wing_area wing_span wing_aspect_ratio wing_taper_ratio wing_thickness_to_chord_root
      fuselage_avg_diameter wing_thickness_to_chord_tip) fuel_wing_fuel_fraction :=
  ⟨d_fuel_wing_volume_geometric_max__wing_area _ _ _ _ _ _ _ _ h0 h1 h2 h3 h4,
    d_fuel_wing_volume_geometric_max__wing_span _ _ _ _ _ _ _ _ h0 h1 h2 h3 h4,
    d_fuel_wing_volume_geometric_max__wing_aspect_ratio _ _ _ _ _ _ _ _ h0 h1 h2 h3 h4,
    d_fuel_wing_volume_geometric_max__wing_taper_ratio _ _ _ _ _ _ _ _ h0 h1 h2 h3 h4,
    d_fuel_wing_volume_geometric_max__wing_thickness_to_chord_root _ _ _ _ _ _ _ _ h0 h1 h2 h3 h4,
    d_fuel_wing_volume_geometric_max__fuselage_avg_diameter _ _ _ _ _ _ _ _ h0 h1 h2 h3 h4,
    d_fuel_wing_volume_geometric_max__wing_thickness_to_chord_tip _ _ _ _ _ _ _ _ h0 h1 h2 h3 h4,
    d_fuel_wing_volume_geometric_max__fuel_wing_fuel_fraction _ _ _ _ _ _ _ _ h0 h1 h2 h3 h4⟩

example : ∃ wing_area wing_span wing_aspect_ratio wing_taper_ratio wing_thickness_to_chord_root
      fuselage_avg_diameter wing_thickness_to_chord_tip fuel_wing_fuel_fraction : ℝ,
      0 < wing_span ∧
      (1 + wing_taper_ratio) - ((fuselage_avg_diameter / wing_span) * (1 - wing_taper_ratio)) ≠ 0 ∧
      0 < wing_area ∧
      0 < wing_aspect_ratio ∧
      0 < wing_taper_ratio :=
  ⟨1, 1, 1, 1, 0, 0, 0, 0, by comp_example, by comp_example, by comp_example, by comp_example, by
    comp_example⟩

end Verif.Comp.GeometryGaspBasedWing.WingVolume

