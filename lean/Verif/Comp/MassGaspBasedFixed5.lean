import Verif.Lemmas.CompDeriv

/-! # Partial derivatives of the components of `aviary/subsystems/mass/gasp_based/fixed.py`

One node of a vector component is modelled over the real numbers.  Each option that selects a
branch is fixed, one namespace per choice.  `out_x` is the output `x`, `J_x__y` the entry that
`compute_partials` (or `declare_partials` with `val`) assigns, `d_x__y` the proof that the entry is
the derivative.  Inputs an output does not take as argument have no influence on it.

* `HighLiftMass_fowler`: not proved: `flap_mass` by `fuselage_avg_diameter`, `flap_mass` by
  `wing_center_chord`, `flap_mass` by `wing_span`, `flap_mass` by `wing_thickness_to_chord_root`,
  `slat_mass` by `fuselage_avg_diameter`, `slat_mass` by `wing_center_chord`, `slat_mass` by
  `wing_thickness_to_chord_root`, `wing_high_lift_mass` by `fuselage_avg_diameter`,
  `wing_high_lift_mass` by `wing_center_chord`, `wing_high_lift_mass` by `wing_span`,
  `wing_high_lift_mass` by `wing_thickness_to_chord_root`

* `HighLiftMass_doubleslottedfowler`: not proved: `flap_mass` by `fuselage_avg_diameter`,
  `flap_mass` by `wing_center_chord`, `flap_mass` by `wing_span`, `flap_mass` by
  `wing_thickness_to_chord_root`, `slat_mass` by `fuselage_avg_diameter`, `slat_mass` by
  `wing_center_chord`, `slat_mass` by `wing_thickness_to_chord_root`, `wing_high_lift_mass` by
  `fuselage_avg_diameter`, `wing_high_lift_mass` by `wing_center_chord`, `wing_high_lift_mass` by
  `wing_span`, `wing_high_lift_mass` by `wing_thickness_to_chord_root`

* `HorizontalTailMass`: entries that differ from the derivative: `horizontaltail_mass` by
  `design_gross_mass`, `horizontaltail_mass` by `fuselage_length`, `horizontaltail_mass` by
  `horizontaltail_area`, `horizontaltail_mass` by `horizontaltail_mass_coefficient`,
  `horizontaltail_mass` by `horizontaltail_moment_arm`, `horizontaltail_mass` by
  `horizontaltail_root_chord`, `horizontaltail_mass` by `horizontaltail_span`,
  `horizontaltail_mass` by `horizontaltail_taper_ratio`, `horizontaltail_mass` by
  `horizontaltail_thickness_to_chord`, `horizontaltail_mass` by
  `landinggear_tail_hook_mass_scaler`, `horizontaltail_mass` by `min_dive_vel` -/

set_option linter.all false

namespace Verif.Comp.MassGaspBasedFixed.HighLiftMass_fowler
open Real

/-- aviary/subsystems/mass/gasp_based/fixed.py:1452 -/
noncomputable def body_to_span_ratio (wing_thickness_to_chord_root wing_span fuselage_avg_diameter wing_center_chord : ℝ) : ℝ :=
  ((2 * (sqrt ((wing_thickness_to_chord_root * wing_center_chord) * (fuselage_avg_diameter -
    (wing_thickness_to_chord_root * wing_center_chord))))) + (2 / 5)) / wing_span

/-- aviary/subsystems/mass/gasp_based/fixed.py:1458 -/
noncomputable def sflap (wing_area wing_flap_chord_ratio wing_taper_ratio wing_flap_span_ratio wing_thickness_to_chord_root wing_span fuselage_avg_diameter wing_center_chord : ℝ) : ℝ :=
  (((wing_flap_chord_ratio * wing_area) / (1 + wing_taper_ratio)) * (wing_flap_span_ratio -
    (body_to_span_ratio wing_thickness_to_chord_root wing_span fuselage_avg_diameter
    wing_center_chord))) * (2 - ((1 - wing_taper_ratio) * (wing_flap_span_ratio +
    (body_to_span_ratio wing_thickness_to_chord_root wing_span fuselage_avg_diameter
    wing_center_chord))))

/-- aviary/subsystems/mass/gasp_based/fixed.py:1466 -/
noncomputable def sle (wing_area wing_slat_chord_ratio wing_taper_ratio wing_slat_span_ratio wing_thickness_to_chord_root wing_span fuselage_avg_diameter wing_center_chord : ℝ) : ℝ :=
  (((wing_slat_chord_ratio * wing_area) / (1 + wing_taper_ratio)) * wing_slat_span_ratio) * (2 -
    ((1 - wing_taper_ratio) * ((99 / 100) + (body_to_span_ratio wing_thickness_to_chord_root
    wing_span fuselage_avg_diameter wing_center_chord))))

/-- aviary/subsystems/mass/gasp_based/fixed.py:1473 -/
noncomputable def vstall (sea_level_density design_wing_loading landing_lift_coefficient_max : ℝ) : ℝ :=
  (5921 / 10000) * (sqrt ((2 * design_wing_loading) / (sea_level_density *
    landing_lift_coefficient_max)))

/-- aviary/subsystems/mass/gasp_based/fixed.py:1474 -/
noncomputable def vflap (sea_level_density design_wing_loading landing_lift_coefficient_max : ℝ) : ℝ :=
  (9 / 5) * (vstall sea_level_density design_wing_loading landing_lift_coefficient_max)

/-- aviary/subsystems/mass/gasp_based/fixed.py:1477 -/
noncomputable def wled (wing_area wing_slat_chord_ratio wing_taper_ratio wing_slat_span_ratio wing_thickness_to_chord_root wing_span fuselage_avg_diameter wing_center_chord : ℝ) : ℝ :=
  (82 / 25) * ((sle wing_area wing_slat_chord_ratio wing_taper_ratio wing_slat_span_ratio
    wing_thickness_to_chord_root wing_span fuselage_avg_diameter wing_center_chord) ^ ((113 /
    100) : ℝ))

/-- aviary/subsystems/mass/gasp_based/fixed.py:1542 -/
noncomputable def u1 (wing_thickness_to_chord_root fuselage_avg_diameter wing_center_chord : ℝ) : ℝ :=
  (wing_thickness_to_chord_root * wing_center_chord) * (fuselage_avg_diameter -
    (wing_thickness_to_chord_root * wing_center_chord))

/-- aviary/subsystems/mass/gasp_based/fixed.py:1543 -/
noncomputable def body_to_span_ratio_2 (wing_thickness_to_chord_root wing_span fuselage_avg_diameter wing_center_chord : ℝ) : ℝ :=
  ((2 * (sqrt (u1 wing_thickness_to_chord_root fuselage_avg_diameter wing_center_chord))) + (2 /
    5)) / wing_span

/-- aviary/subsystems/mass/gasp_based/fixed.py:1544 -/
noncomputable def dbtsr_dwingspan (wing_thickness_to_chord_root wing_span fuselage_avg_diameter wing_center_chord : ℝ) : ℝ :=
  (-(1 / wing_span)) * (body_to_span_ratio_2 wing_thickness_to_chord_root wing_span
    fuselage_avg_diameter wing_center_chord)

/-- aviary/subsystems/mass/gasp_based/fixed.py:1546 -/
noncomputable def dbtsr_dtcrr (wing_thickness_to_chord_root wing_span fuselage_avg_diameter wing_center_chord : ℝ) : ℝ :=
  ((1 / wing_span) * (1 / (sqrt (u1 wing_thickness_to_chord_root fuselage_avg_diameter
    wing_center_chord)))) * ((wing_center_chord * fuselage_avg_diameter) - ((2 *
    wing_thickness_to_chord_root) * (wing_center_chord ^ 2)))

/-- aviary/subsystems/mass/gasp_based/fixed.py:1552 -/
noncomputable def dbtsr_dcc (wing_thickness_to_chord_root wing_span fuselage_avg_diameter wing_center_chord : ℝ) : ℝ :=
  ((1 / wing_span) * (1 / (sqrt (u1 wing_thickness_to_chord_root fuselage_avg_diameter
    wing_center_chord)))) * ((wing_thickness_to_chord_root * fuselage_avg_diameter) - ((2 *
    (wing_thickness_to_chord_root ^ 2)) * wing_center_chord))

/-- aviary/subsystems/mass/gasp_based/fixed.py:1558 -/
noncomputable def dbtsr_dcw (wing_thickness_to_chord_root wing_span fuselage_avg_diameter wing_center_chord : ℝ) : ℝ :=
  ((1 / wing_span) * (1 / (sqrt (u1 wing_thickness_to_chord_root fuselage_avg_diameter
    wing_center_chord)))) * (wing_thickness_to_chord_root * wing_center_chord)

/-- aviary/subsystems/mass/gasp_based/fixed.py:1560 -/
noncomputable def sflap_2 (wing_area wing_flap_chord_ratio wing_taper_ratio wing_flap_span_ratio wing_thickness_to_chord_root wing_span fuselage_avg_diameter wing_center_chord : ℝ) : ℝ :=
  (((wing_flap_chord_ratio * wing_area) / (1 + wing_taper_ratio)) * (wing_flap_span_ratio -
    (body_to_span_ratio_2 wing_thickness_to_chord_root wing_span fuselage_avg_diameter
    wing_center_chord))) * (2 - ((1 - wing_taper_ratio) * (wing_flap_span_ratio +
    (body_to_span_ratio_2 wing_thickness_to_chord_root wing_span fuselage_avg_diameter
    wing_center_chord))))

/-- aviary/subsystems/mass/gasp_based/fixed.py:1568 -/
noncomputable def dsflap_dfcr (wing_area wing_taper_ratio wing_flap_span_ratio wing_thickness_to_chord_root wing_span fuselage_avg_diameter wing_center_chord : ℝ) : ℝ :=
  ((wing_area / (1 + wing_taper_ratio)) * (wing_flap_span_ratio - (body_to_span_ratio_2
    wing_thickness_to_chord_root wing_span fuselage_avg_diameter wing_center_chord))) * (2 - ((1
    - wing_taper_ratio) * (wing_flap_span_ratio + (body_to_span_ratio_2
    wing_thickness_to_chord_root wing_span fuselage_avg_diameter wing_center_chord))))

/-- aviary/subsystems/mass/gasp_based/fixed.py:1575 -/
noncomputable def dsflap_dwa (wing_flap_chord_ratio wing_taper_ratio wing_flap_span_ratio wing_thickness_to_chord_root wing_span fuselage_avg_diameter wing_center_chord : ℝ) : ℝ :=
  ((wing_flap_chord_ratio / (1 + wing_taper_ratio)) * (wing_flap_span_ratio -
    (body_to_span_ratio_2 wing_thickness_to_chord_root wing_span fuselage_avg_diameter
    wing_center_chord))) * (2 - ((1 - wing_taper_ratio) * (wing_flap_span_ratio +
    (body_to_span_ratio_2 wing_thickness_to_chord_root wing_span fuselage_avg_diameter
    wing_center_chord))))

/-- aviary/subsystems/mass/gasp_based/fixed.py:1582 -/
noncomputable def dsflap_dfsr (wing_area wing_flap_chord_ratio wing_taper_ratio wing_flap_span_ratio : ℝ) : ℝ :=
  (wing_flap_chord_ratio * wing_area) * (((2 / (1 + wing_taper_ratio)) * (1 - (2 *
    wing_flap_span_ratio))) + (2 * wing_flap_span_ratio))

/-- aviary/subsystems/mass/gasp_based/fixed.py:1587 -/
noncomputable def dsflap_dbtsr (wing_area wing_flap_chord_ratio wing_taper_ratio wing_thickness_to_chord_root wing_span fuselage_avg_diameter wing_center_chord : ℝ) : ℝ :=
  (wing_flap_chord_ratio * wing_area) * (((2 / (1 + wing_taper_ratio)) * ((2 *
    (body_to_span_ratio_2 wing_thickness_to_chord_root wing_span fuselage_avg_diameter
    wing_center_chord)) - 1)) - (2 * (body_to_span_ratio_2 wing_thickness_to_chord_root
    wing_span fuselage_avg_diameter wing_center_chord)))

/-- aviary/subsystems/mass/gasp_based/fixed.py:1592 -/
noncomputable def dsflap_dtr (wing_area wing_flap_chord_ratio wing_taper_ratio wing_flap_span_ratio wing_thickness_to_chord_root wing_span fuselage_avg_diameter wing_center_chord : ℝ) : ℝ :=
  ((((wing_flap_chord_ratio * wing_area) * (-2)) / ((1 + wing_taper_ratio) ^ 2)) *
    (wing_flap_span_ratio - (body_to_span_ratio_2 wing_thickness_to_chord_root wing_span
    fuselage_avg_diameter wing_center_chord))) * ((1 - wing_flap_span_ratio) -
    (body_to_span_ratio_2 wing_thickness_to_chord_root wing_span fuselage_avg_diameter
    wing_center_chord))

/-- aviary/subsystems/mass/gasp_based/fixed.py:1601 -/
noncomputable def sle_2 (wing_area wing_slat_chord_ratio wing_taper_ratio wing_slat_span_ratio wing_thickness_to_chord_root wing_span fuselage_avg_diameter wing_center_chord : ℝ) : ℝ :=
  (((wing_slat_chord_ratio * wing_area) / (1 + wing_taper_ratio)) * wing_slat_span_ratio) * (2 -
    ((1 - wing_taper_ratio) * ((99 / 100) + (body_to_span_ratio_2 wing_thickness_to_chord_root
    wing_span fuselage_avg_diameter wing_center_chord))))

/-- aviary/subsystems/mass/gasp_based/fixed.py:1608 -/
noncomputable def dsle_dscr (wing_area wing_taper_ratio wing_slat_span_ratio wing_thickness_to_chord_root wing_span fuselage_avg_diameter wing_center_chord : ℝ) : ℝ :=
  ((wing_area / (1 + wing_taper_ratio)) * wing_slat_span_ratio) * (2 - ((1 - wing_taper_ratio) *
    ((99 / 100) + (body_to_span_ratio_2 wing_thickness_to_chord_root wing_span
    fuselage_avg_diameter wing_center_chord))))

/-- aviary/subsystems/mass/gasp_based/fixed.py:1615 -/
noncomputable def dsle_dwa (wing_slat_chord_ratio wing_taper_ratio wing_slat_span_ratio wing_thickness_to_chord_root wing_span fuselage_avg_diameter wing_center_chord : ℝ) : ℝ :=
  ((wing_slat_chord_ratio / (1 + wing_taper_ratio)) * wing_slat_span_ratio) * (2 - ((1 -
    wing_taper_ratio) * ((99 / 100) + (body_to_span_ratio_2 wing_thickness_to_chord_root
    wing_span fuselage_avg_diameter wing_center_chord))))

/-- aviary/subsystems/mass/gasp_based/fixed.py:1622 -/
noncomputable def dsle_dssr (wing_area wing_slat_chord_ratio wing_taper_ratio wing_thickness_to_chord_root wing_span fuselage_avg_diameter wing_center_chord : ℝ) : ℝ :=
  ((wing_slat_chord_ratio * wing_area) / (1 + wing_taper_ratio)) * (2 - ((1 - wing_taper_ratio)
    * ((99 / 100) + (body_to_span_ratio_2 wing_thickness_to_chord_root wing_span
    fuselage_avg_diameter wing_center_chord))))

/-- aviary/subsystems/mass/gasp_based/fixed.py:1627 -/
noncomputable def dsle_dbtsr (wing_area wing_slat_chord_ratio wing_taper_ratio wing_slat_span_ratio : ℝ) : ℝ :=
  (((-(wing_slat_chord_ratio * wing_area)) / (1 + wing_taper_ratio)) * wing_slat_span_ratio) *
    (1 - wing_taper_ratio)

/-- aviary/subsystems/mass/gasp_based/fixed.py:1633 -/
noncomputable def dsle_dtr (wing_area wing_slat_chord_ratio wing_taper_ratio wing_slat_span_ratio wing_thickness_to_chord_root wing_span fuselage_avg_diameter wing_center_chord : ℝ) : ℝ :=
  ((((2 * wing_slat_chord_ratio) * wing_area) * wing_slat_span_ratio) / ((1 + wing_taper_ratio)
    ^ 2)) * (((99 / 100) + (body_to_span_ratio_2 wing_thickness_to_chord_root wing_span
    fuselage_avg_diameter wing_center_chord)) - 1)

/-- aviary/subsystems/mass/gasp_based/fixed.py:1639 -/
noncomputable def u2 (sea_level_density design_wing_loading landing_lift_coefficient_max : ℝ) : ℝ :=
  (2 * design_wing_loading) / (sea_level_density * landing_lift_coefficient_max)

/-- aviary/subsystems/mass/gasp_based/fixed.py:1640 -/
noncomputable def vflap_2 (sea_level_density design_wing_loading landing_lift_coefficient_max : ℝ) : ℝ :=
  (9 / 5) * ((5921 / 10000) * (sqrt (u2 sea_level_density design_wing_loading
    landing_lift_coefficient_max)))

/-- aviary/subsystems/mass/gasp_based/fixed.py:1641 -/
noncomputable def dvflap_dwl (sea_level_density design_wing_loading landing_lift_coefficient_max : ℝ) : ℝ :=
  ((53289 / 50000) * (1 / (sqrt (u2 sea_level_density design_wing_loading
    landing_lift_coefficient_max)))) * (1 / (sea_level_density * landing_lift_coefficient_max))

/-- aviary/subsystems/mass/gasp_based/fixed.py:1645 -/
noncomputable def dvflap_dcmfl (sea_level_density design_wing_loading landing_lift_coefficient_max : ℝ) : ℝ :=
  ((-(53289 / 50000)) * (1 / (sqrt (u2 sea_level_density design_wing_loading
    landing_lift_coefficient_max)))) * (design_wing_loading / (sea_level_density *
    (landing_lift_coefficient_max ^ 2)))

/-- Output `slat_mass` of `HighLiftMass.compute`, aviary/subsystems/mass/gasp_based/fixed.py:1478 -/
noncomputable def out_slat_mass (wing_area wing_slat_chord_ratio wing_taper_ratio wing_slat_span_ratio wing_thickness_to_chord_root wing_span fuselage_avg_diameter wing_center_chord : ℝ) : ℝ :=
  wled wing_area wing_slat_chord_ratio wing_taper_ratio wing_slat_span_ratio
    wing_thickness_to_chord_root wing_span fuselage_avg_diameter wing_center_chord

/-- Output `flap_mass` of `HighLiftMass.compute`, aviary/subsystems/mass/gasp_based/fixed.py:1512 -/
noncomputable def out_flap_mass (wing_num_flap_segments sea_level_density wing_high_lift_mass_coefficient wing_area wing_flap_chord_ratio wing_taper_ratio wing_flap_span_ratio design_wing_loading wing_thickness_to_chord_root wing_span fuselage_avg_diameter wing_center_chord landing_lift_coefficient_max : ℝ) : ℝ :=
  ((wing_high_lift_mass_coefficient * (((vflap sea_level_density design_wing_loading
    landing_lift_coefficient_max) / 100) ^ ((119 / 50) : ℝ))) * ((sflap wing_area
    wing_flap_chord_ratio wing_taper_ratio wing_flap_span_ratio wing_thickness_to_chord_root
    wing_span fuselage_avg_diameter wing_center_chord) ^ ((119 / 100) : ℝ))) /
    (wing_num_flap_segments ^ ((119 / 200) : ℝ))

/-- Output `wing_high_lift_mass` of `HighLiftMass.compute`, aviary/subsystems/mass/gasp_based/fixed.py:1522 -/
noncomputable def out_wing_high_lift_mass (wing_num_flap_segments sea_level_density wing_high_lift_mass_coefficient wing_area wing_slat_chord_ratio wing_flap_chord_ratio wing_taper_ratio wing_flap_span_ratio wing_slat_span_ratio design_wing_loading wing_thickness_to_chord_root wing_span fuselage_avg_diameter wing_center_chord landing_lift_coefficient_max : ℝ) : ℝ :=
  (((wing_high_lift_mass_coefficient * (((vflap sea_level_density design_wing_loading
    landing_lift_coefficient_max) / 100) ^ ((119 / 50) : ℝ))) * ((sflap wing_area
    wing_flap_chord_ratio wing_taper_ratio wing_flap_span_ratio wing_thickness_to_chord_root
    wing_span fuselage_avg_diameter wing_center_chord) ^ ((119 / 100) : ℝ))) /
    (wing_num_flap_segments ^ ((119 / 200) : ℝ))) + (wled wing_area wing_slat_chord_ratio
    wing_taper_ratio wing_slat_span_ratio wing_thickness_to_chord_root wing_span
    fuselage_avg_diameter wing_center_chord)

/-- Partial of `slat_mass` with respect to `wing_slat_chord_ratio` as set by `HighLiftMass`, aviary/subsystems/mass/gasp_based/fixed.py:1650 -/
noncomputable def J_slat_mass__wing_slat_chord_ratio (wing_area wing_slat_chord_ratio wing_taper_ratio wing_slat_span_ratio wing_thickness_to_chord_root wing_span fuselage_avg_diameter wing_center_chord : ℝ) : ℝ :=
  ((4633 / 1250) * ((sle_2 wing_area wing_slat_chord_ratio wing_taper_ratio wing_slat_span_ratio
    wing_thickness_to_chord_root wing_span fuselage_avg_diameter wing_center_chord) ^ ((13 /
    100) : ℝ))) * (dsle_dscr wing_area wing_taper_ratio wing_slat_span_ratio
    wing_thickness_to_chord_root wing_span fuselage_avg_diameter wing_center_chord)

/-- Partial of `slat_mass` with respect to `wing_area` as set by `HighLiftMass`, aviary/subsystems/mass/gasp_based/fixed.py:1653 -/
noncomputable def J_slat_mass__wing_area (wing_area wing_slat_chord_ratio wing_taper_ratio wing_slat_span_ratio wing_thickness_to_chord_root wing_span fuselage_avg_diameter wing_center_chord : ℝ) : ℝ :=
  ((4633 / 1250) * ((sle_2 wing_area wing_slat_chord_ratio wing_taper_ratio wing_slat_span_ratio
    wing_thickness_to_chord_root wing_span fuselage_avg_diameter wing_center_chord) ^ ((13 /
    100) : ℝ))) * (dsle_dwa wing_slat_chord_ratio wing_taper_ratio wing_slat_span_ratio
    wing_thickness_to_chord_root wing_span fuselage_avg_diameter wing_center_chord)

/-- Partial of `slat_mass` with respect to `wing_slat_span_ratio` as set by `HighLiftMass`, aviary/subsystems/mass/gasp_based/fixed.py:1654 -/
noncomputable def J_slat_mass__wing_slat_span_ratio (wing_area wing_slat_chord_ratio wing_taper_ratio wing_slat_span_ratio wing_thickness_to_chord_root wing_span fuselage_avg_diameter wing_center_chord : ℝ) : ℝ :=
  ((4633 / 1250) * ((sle_2 wing_area wing_slat_chord_ratio wing_taper_ratio wing_slat_span_ratio
    wing_thickness_to_chord_root wing_span fuselage_avg_diameter wing_center_chord) ^ ((13 /
    100) : ℝ))) * (dsle_dssr wing_area wing_slat_chord_ratio wing_taper_ratio
    wing_thickness_to_chord_root wing_span fuselage_avg_diameter wing_center_chord)

/-- Partial of `slat_mass` with respect to `wing_taper_ratio` as set by `HighLiftMass`, aviary/subsystems/mass/gasp_based/fixed.py:1657 -/
noncomputable def J_slat_mass__wing_taper_ratio (wing_area wing_slat_chord_ratio wing_taper_ratio wing_slat_span_ratio wing_thickness_to_chord_root wing_span fuselage_avg_diameter wing_center_chord : ℝ) : ℝ :=
  ((4633 / 1250) * ((sle_2 wing_area wing_slat_chord_ratio wing_taper_ratio wing_slat_span_ratio
    wing_thickness_to_chord_root wing_span fuselage_avg_diameter wing_center_chord) ^ ((13 /
    100) : ℝ))) * (dsle_dtr wing_area wing_slat_chord_ratio wing_taper_ratio
    wing_slat_span_ratio wing_thickness_to_chord_root wing_span fuselage_avg_diameter
    wing_center_chord)

/-- Partial of `slat_mass` with respect to `wing_span` as set by `HighLiftMass`, aviary/subsystems/mass/gasp_based/fixed.py:1660 -/
noncomputable def J_slat_mass__wing_span (wing_area wing_slat_chord_ratio wing_taper_ratio wing_slat_span_ratio wing_thickness_to_chord_root wing_span fuselage_avg_diameter wing_center_chord : ℝ) : ℝ :=
  (((4633 / 1250) * ((sle_2 wing_area wing_slat_chord_ratio wing_taper_ratio
    wing_slat_span_ratio wing_thickness_to_chord_root wing_span fuselage_avg_diameter
    wing_center_chord) ^ ((13 / 100) : ℝ))) * (dsle_dbtsr wing_area wing_slat_chord_ratio
    wing_taper_ratio wing_slat_span_ratio)) * (dbtsr_dwingspan wing_thickness_to_chord_root
    wing_span fuselage_avg_diameter wing_center_chord)

/-- Partial of `slat_mass` with respect to `wing_thickness_to_chord_root` as set by `HighLiftMass`, aviary/subsystems/mass/gasp_based/fixed.py:1663 -/
noncomputable def J_slat_mass__wing_thickness_to_chord_root (wing_area wing_slat_chord_ratio wing_taper_ratio wing_slat_span_ratio wing_thickness_to_chord_root wing_span fuselage_avg_diameter wing_center_chord : ℝ) : ℝ :=
  (((4633 / 1250) * ((sle_2 wing_area wing_slat_chord_ratio wing_taper_ratio
    wing_slat_span_ratio wing_thickness_to_chord_root wing_span fuselage_avg_diameter
    wing_center_chord) ^ ((13 / 100) : ℝ))) * (dsle_dbtsr wing_area wing_slat_chord_ratio
    wing_taper_ratio wing_slat_span_ratio)) * (dbtsr_dtcrr wing_thickness_to_chord_root
    wing_span fuselage_avg_diameter wing_center_chord)

/-- Partial of `slat_mass` with respect to `wing_center_chord` as set by `HighLiftMass`, aviary/subsystems/mass/gasp_based/fixed.py:1666 -/
noncomputable def J_slat_mass__wing_center_chord (wing_area wing_slat_chord_ratio wing_taper_ratio wing_slat_span_ratio wing_thickness_to_chord_root wing_span fuselage_avg_diameter wing_center_chord : ℝ) : ℝ :=
  (((4633 / 1250) * ((sle_2 wing_area wing_slat_chord_ratio wing_taper_ratio
    wing_slat_span_ratio wing_thickness_to_chord_root wing_span fuselage_avg_diameter
    wing_center_chord) ^ ((13 / 100) : ℝ))) * (dsle_dbtsr wing_area wing_slat_chord_ratio
    wing_taper_ratio wing_slat_span_ratio)) * (dbtsr_dcc wing_thickness_to_chord_root wing_span
    fuselage_avg_diameter wing_center_chord)

/-- Partial of `slat_mass` with respect to `fuselage_avg_diameter` as set by `HighLiftMass`, aviary/subsystems/mass/gasp_based/fixed.py:1669 -/
noncomputable def J_slat_mass__fuselage_avg_diameter (wing_area wing_slat_chord_ratio wing_taper_ratio wing_slat_span_ratio wing_thickness_to_chord_root wing_span fuselage_avg_diameter wing_center_chord : ℝ) : ℝ :=
  (((4633 / 1250) * ((sle_2 wing_area wing_slat_chord_ratio wing_taper_ratio
    wing_slat_span_ratio wing_thickness_to_chord_root wing_span fuselage_avg_diameter
    wing_center_chord) ^ ((13 / 100) : ℝ))) * (dsle_dbtsr wing_area wing_slat_chord_ratio
    wing_taper_ratio wing_slat_span_ratio)) * (dbtsr_dcw wing_thickness_to_chord_root wing_span
    fuselage_avg_diameter wing_center_chord)

/-- Partial of `flap_mass` with respect to `wing_high_lift_mass_coefficient` as set by `HighLiftMass`, aviary/subsystems/mass/gasp_based/fixed.py:2005 -/
noncomputable def J_flap_mass__wing_high_lift_mass_coefficient (wing_num_flap_segments sea_level_density wing_area wing_flap_chord_ratio wing_taper_ratio wing_flap_span_ratio design_wing_loading wing_thickness_to_chord_root wing_span fuselage_avg_diameter wing_center_chord landing_lift_coefficient_max : ℝ) : ℝ :=
  ((((vflap_2 sea_level_density design_wing_loading landing_lift_coefficient_max) / 100) ^ ((119
    / 50) : ℝ)) * ((sflap_2 wing_area wing_flap_chord_ratio wing_taper_ratio
    wing_flap_span_ratio wing_thickness_to_chord_root wing_span fuselage_avg_diameter
    wing_center_chord) ^ ((119 / 100) : ℝ))) / (wing_num_flap_segments ^ ((119 / 200) : ℝ))

/-- Partial of `flap_mass` with respect to `design_wing_loading` as set by `HighLiftMass`, aviary/subsystems/mass/gasp_based/fixed.py:2008 -/
noncomputable def J_flap_mass__design_wing_loading (wing_num_flap_segments sea_level_density wing_high_lift_mass_coefficient wing_area wing_flap_chord_ratio wing_taper_ratio wing_flap_span_ratio design_wing_loading wing_thickness_to_chord_root wing_span fuselage_avg_diameter wing_center_chord landing_lift_coefficient_max : ℝ) : ℝ :=
  (((wing_high_lift_mass_coefficient * (((119 / 50) * ((vflap_2 sea_level_density
    design_wing_loading landing_lift_coefficient_max) ^ ((69 / 50) : ℝ))) / (100 ^ ((119 / 50) :
    ℝ)))) * (dvflap_dwl sea_level_density design_wing_loading landing_lift_coefficient_max)) *
    ((sflap_2 wing_area wing_flap_chord_ratio wing_taper_ratio wing_flap_span_ratio
    wing_thickness_to_chord_root wing_span fuselage_avg_diameter wing_center_chord) ^ ((119 /
    100) : ℝ))) / (wing_num_flap_segments ^ ((119 / 200) : ℝ))

/-- Partial of `flap_mass` with respect to `landing_lift_coefficient_max` as set by `HighLiftMass`, aviary/subsystems/mass/gasp_based/fixed.py:2016 -/
noncomputable def J_flap_mass__landing_lift_coefficient_max (wing_num_flap_segments sea_level_density wing_high_lift_mass_coefficient wing_area wing_flap_chord_ratio wing_taper_ratio wing_flap_span_ratio design_wing_loading wing_thickness_to_chord_root wing_span fuselage_avg_diameter wing_center_chord landing_lift_coefficient_max : ℝ) : ℝ :=
  (((wing_high_lift_mass_coefficient * (((119 / 50) * ((vflap_2 sea_level_density
    design_wing_loading landing_lift_coefficient_max) ^ ((69 / 50) : ℝ))) / (100 ^ ((119 / 50) :
    ℝ)))) * (dvflap_dcmfl sea_level_density design_wing_loading landing_lift_coefficient_max)) *
    ((sflap_2 wing_area wing_flap_chord_ratio wing_taper_ratio wing_flap_span_ratio
    wing_thickness_to_chord_root wing_span fuselage_avg_diameter wing_center_chord) ^ ((119 /
    100) : ℝ))) / (wing_num_flap_segments ^ ((119 / 200) : ℝ))

/-- Partial of `flap_mass` with respect to `wing_flap_chord_ratio` as set by `HighLiftMass`, aviary/subsystems/mass/gasp_based/fixed.py:2024 -/
noncomputable def J_flap_mass__wing_flap_chord_ratio (wing_num_flap_segments sea_level_density wing_high_lift_mass_coefficient wing_area wing_flap_chord_ratio wing_taper_ratio wing_flap_span_ratio design_wing_loading wing_thickness_to_chord_root wing_span fuselage_avg_diameter wing_center_chord landing_lift_coefficient_max : ℝ) : ℝ :=
  (((wing_high_lift_mass_coefficient * (((vflap_2 sea_level_density design_wing_loading
    landing_lift_coefficient_max) / 100) ^ ((119 / 50) : ℝ))) * ((119 / 100) * ((sflap_2
    wing_area wing_flap_chord_ratio wing_taper_ratio wing_flap_span_ratio
    wing_thickness_to_chord_root wing_span fuselage_avg_diameter wing_center_chord) ^ ((19 /
    100) : ℝ)))) * (dsflap_dfcr wing_area wing_taper_ratio wing_flap_span_ratio
    wing_thickness_to_chord_root wing_span fuselage_avg_diameter wing_center_chord)) /
    (wing_num_flap_segments ^ ((119 / 200) : ℝ))

/-- Partial of `flap_mass` with respect to `wing_area` as set by `HighLiftMass`, aviary/subsystems/mass/gasp_based/fixed.py:2032 -/
noncomputable def J_flap_mass__wing_area (wing_num_flap_segments sea_level_density wing_high_lift_mass_coefficient wing_area wing_flap_chord_ratio wing_taper_ratio wing_flap_span_ratio design_wing_loading wing_thickness_to_chord_root wing_span fuselage_avg_diameter wing_center_chord landing_lift_coefficient_max : ℝ) : ℝ :=
  (((wing_high_lift_mass_coefficient * (((vflap_2 sea_level_density design_wing_loading
    landing_lift_coefficient_max) / 100) ^ ((119 / 50) : ℝ))) * ((119 / 100) * ((sflap_2
    wing_area wing_flap_chord_ratio wing_taper_ratio wing_flap_span_ratio
    wing_thickness_to_chord_root wing_span fuselage_avg_diameter wing_center_chord) ^ ((19 /
    100) : ℝ)))) * (dsflap_dwa wing_flap_chord_ratio wing_taper_ratio wing_flap_span_ratio
    wing_thickness_to_chord_root wing_span fuselage_avg_diameter wing_center_chord)) /
    (wing_num_flap_segments ^ ((119 / 200) : ℝ))

/-- Partial of `flap_mass` with respect to `wing_flap_span_ratio` as set by `HighLiftMass`, aviary/subsystems/mass/gasp_based/fixed.py:2040 -/
noncomputable def J_flap_mass__wing_flap_span_ratio (wing_num_flap_segments sea_level_density wing_high_lift_mass_coefficient wing_area wing_flap_chord_ratio wing_taper_ratio wing_flap_span_ratio design_wing_loading wing_thickness_to_chord_root wing_span fuselage_avg_diameter wing_center_chord landing_lift_coefficient_max : ℝ) : ℝ :=
  (((wing_high_lift_mass_coefficient * (((vflap_2 sea_level_density design_wing_loading
    landing_lift_coefficient_max) / 100) ^ ((119 / 50) : ℝ))) * ((119 / 100) * ((sflap_2
    wing_area wing_flap_chord_ratio wing_taper_ratio wing_flap_span_ratio
    wing_thickness_to_chord_root wing_span fuselage_avg_diameter wing_center_chord) ^ ((19 /
    100) : ℝ)))) * (dsflap_dfsr wing_area wing_flap_chord_ratio wing_taper_ratio
    wing_flap_span_ratio)) / (wing_num_flap_segments ^ ((119 / 200) : ℝ))

/-- Partial of `flap_mass` with respect to `wing_taper_ratio` as set by `HighLiftMass`, aviary/subsystems/mass/gasp_based/fixed.py:2048 -/
noncomputable def J_flap_mass__wing_taper_ratio (wing_num_flap_segments sea_level_density wing_high_lift_mass_coefficient wing_area wing_flap_chord_ratio wing_taper_ratio wing_flap_span_ratio design_wing_loading wing_thickness_to_chord_root wing_span fuselage_avg_diameter wing_center_chord landing_lift_coefficient_max : ℝ) : ℝ :=
  (((wing_high_lift_mass_coefficient * (((vflap_2 sea_level_density design_wing_loading
    landing_lift_coefficient_max) / 100) ^ ((119 / 50) : ℝ))) * ((119 / 100) * ((sflap_2
    wing_area wing_flap_chord_ratio wing_taper_ratio wing_flap_span_ratio
    wing_thickness_to_chord_root wing_span fuselage_avg_diameter wing_center_chord) ^ ((19 /
    100) : ℝ)))) * (dsflap_dtr wing_area wing_flap_chord_ratio wing_taper_ratio
    wing_flap_span_ratio wing_thickness_to_chord_root wing_span fuselage_avg_diameter
    wing_center_chord)) / (wing_num_flap_segments ^ ((119 / 200) : ℝ))

/-- Partial of `flap_mass` with respect to `wing_span` as set by `HighLiftMass`, aviary/subsystems/mass/gasp_based/fixed.py:2056 -/
noncomputable def J_flap_mass__wing_span (wing_num_flap_segments sea_level_density wing_high_lift_mass_coefficient wing_area wing_flap_chord_ratio wing_taper_ratio wing_flap_span_ratio design_wing_loading wing_thickness_to_chord_root wing_span fuselage_avg_diameter wing_center_chord landing_lift_coefficient_max : ℝ) : ℝ :=
  ((((wing_high_lift_mass_coefficient * (((vflap_2 sea_level_density design_wing_loading
    landing_lift_coefficient_max) / 100) ^ ((119 / 50) : ℝ))) * ((119 / 100) * ((sflap_2
    wing_area wing_flap_chord_ratio wing_taper_ratio wing_flap_span_ratio
    wing_thickness_to_chord_root wing_span fuselage_avg_diameter wing_center_chord) ^ ((19 /
    100) : ℝ)))) * (dsflap_dbtsr wing_area wing_flap_chord_ratio wing_taper_ratio
    wing_thickness_to_chord_root wing_span fuselage_avg_diameter wing_center_chord)) *
    (dbtsr_dwingspan wing_thickness_to_chord_root wing_span fuselage_avg_diameter
    wing_center_chord)) / (wing_num_flap_segments ^ ((119 / 200) : ℝ))

/-- Partial of `flap_mass` with respect to `wing_thickness_to_chord_root` as set by `HighLiftMass`, aviary/subsystems/mass/gasp_based/fixed.py:2066 -/
noncomputable def J_flap_mass__wing_thickness_to_chord_root (wing_num_flap_segments sea_level_density wing_high_lift_mass_coefficient wing_area wing_flap_chord_ratio wing_taper_ratio wing_flap_span_ratio design_wing_loading wing_thickness_to_chord_root wing_span fuselage_avg_diameter wing_center_chord landing_lift_coefficient_max : ℝ) : ℝ :=
  ((((wing_high_lift_mass_coefficient * (((vflap_2 sea_level_density design_wing_loading
    landing_lift_coefficient_max) / 100) ^ ((119 / 50) : ℝ))) * ((119 / 100) * ((sflap_2
    wing_area wing_flap_chord_ratio wing_taper_ratio wing_flap_span_ratio
    wing_thickness_to_chord_root wing_span fuselage_avg_diameter wing_center_chord) ^ ((19 /
    100) : ℝ)))) * (dsflap_dbtsr wing_area wing_flap_chord_ratio wing_taper_ratio
    wing_thickness_to_chord_root wing_span fuselage_avg_diameter wing_center_chord)) *
    (dbtsr_dtcrr wing_thickness_to_chord_root wing_span fuselage_avg_diameter
    wing_center_chord)) / (wing_num_flap_segments ^ ((119 / 200) : ℝ))

/-- Partial of `flap_mass` with respect to `wing_center_chord` as set by `HighLiftMass`, aviary/subsystems/mass/gasp_based/fixed.py:2076 -/
noncomputable def J_flap_mass__wing_center_chord (wing_num_flap_segments sea_level_density wing_high_lift_mass_coefficient wing_area wing_flap_chord_ratio wing_taper_ratio wing_flap_span_ratio design_wing_loading wing_thickness_to_chord_root wing_span fuselage_avg_diameter wing_center_chord landing_lift_coefficient_max : ℝ) : ℝ :=
  ((((wing_high_lift_mass_coefficient * (((vflap_2 sea_level_density design_wing_loading
    landing_lift_coefficient_max) / 100) ^ ((119 / 50) : ℝ))) * ((119 / 100) * ((sflap_2
    wing_area wing_flap_chord_ratio wing_taper_ratio wing_flap_span_ratio
    wing_thickness_to_chord_root wing_span fuselage_avg_diameter wing_center_chord) ^ ((19 /
    100) : ℝ)))) * (dsflap_dbtsr wing_area wing_flap_chord_ratio wing_taper_ratio
    wing_thickness_to_chord_root wing_span fuselage_avg_diameter wing_center_chord)) *
    (dbtsr_dcc wing_thickness_to_chord_root wing_span fuselage_avg_diameter wing_center_chord))
    / (wing_num_flap_segments ^ ((119 / 200) : ℝ))

/-- Partial of `flap_mass` with respect to `fuselage_avg_diameter` as set by `HighLiftMass`, aviary/subsystems/mass/gasp_based/fixed.py:2085 -/
noncomputable def J_flap_mass__fuselage_avg_diameter (wing_num_flap_segments sea_level_density wing_high_lift_mass_coefficient wing_area wing_flap_chord_ratio wing_taper_ratio wing_flap_span_ratio design_wing_loading wing_thickness_to_chord_root wing_span fuselage_avg_diameter wing_center_chord landing_lift_coefficient_max : ℝ) : ℝ :=
  ((((wing_high_lift_mass_coefficient * (((vflap_2 sea_level_density design_wing_loading
    landing_lift_coefficient_max) / 100) ^ ((119 / 50) : ℝ))) * ((119 / 100) * ((sflap_2
    wing_area wing_flap_chord_ratio wing_taper_ratio wing_flap_span_ratio
    wing_thickness_to_chord_root wing_span fuselage_avg_diameter wing_center_chord) ^ ((19 /
    100) : ℝ)))) * (dsflap_dbtsr wing_area wing_flap_chord_ratio wing_taper_ratio
    wing_thickness_to_chord_root wing_span fuselage_avg_diameter wing_center_chord)) *
    (dbtsr_dcw wing_thickness_to_chord_root wing_span fuselage_avg_diameter wing_center_chord))
    / (wing_num_flap_segments ^ ((119 / 200) : ℝ))

/-- Partial of `wing_high_lift_mass` with respect to `wing_high_lift_mass_coefficient` as set by `HighLiftMass`, aviary/subsystems/mass/gasp_based/fixed.py:2095 -/
noncomputable def J_wing_high_lift_mass__wing_high_lift_mass_coefficient (wing_num_flap_segments sea_level_density wing_area wing_flap_chord_ratio wing_taper_ratio wing_flap_span_ratio design_wing_loading wing_thickness_to_chord_root wing_span fuselage_avg_diameter wing_center_chord landing_lift_coefficient_max : ℝ) : ℝ :=
  ((((vflap_2 sea_level_density design_wing_loading landing_lift_coefficient_max) / 100) ^ ((119
    / 50) : ℝ)) * ((sflap_2 wing_area wing_flap_chord_ratio wing_taper_ratio
    wing_flap_span_ratio wing_thickness_to_chord_root wing_span fuselage_avg_diameter
    wing_center_chord) ^ ((119 / 100) : ℝ))) / (wing_num_flap_segments ^ ((119 / 200) : ℝ))

/-- Partial of `wing_high_lift_mass` with respect to `design_wing_loading` as set by `HighLiftMass`, aviary/subsystems/mass/gasp_based/fixed.py:2099 -/
noncomputable def J_wing_high_lift_mass__design_wing_loading (wing_num_flap_segments sea_level_density wing_high_lift_mass_coefficient wing_area wing_flap_chord_ratio wing_taper_ratio wing_flap_span_ratio design_wing_loading wing_thickness_to_chord_root wing_span fuselage_avg_diameter wing_center_chord landing_lift_coefficient_max : ℝ) : ℝ :=
  (((wing_high_lift_mass_coefficient * (((119 / 50) * ((vflap_2 sea_level_density
    design_wing_loading landing_lift_coefficient_max) ^ ((69 / 50) : ℝ))) / (100 ^ ((119 / 50) :
    ℝ)))) * (dvflap_dwl sea_level_density design_wing_loading landing_lift_coefficient_max)) *
    ((sflap_2 wing_area wing_flap_chord_ratio wing_taper_ratio wing_flap_span_ratio
    wing_thickness_to_chord_root wing_span fuselage_avg_diameter wing_center_chord) ^ ((119 /
    100) : ℝ))) / (wing_num_flap_segments ^ ((119 / 200) : ℝ))

/-- Partial of `wing_high_lift_mass` with respect to `landing_lift_coefficient_max` as set by `HighLiftMass`, aviary/subsystems/mass/gasp_based/fixed.py:2102 -/
noncomputable def J_wing_high_lift_mass__landing_lift_coefficient_max (wing_num_flap_segments sea_level_density wing_high_lift_mass_coefficient wing_area wing_flap_chord_ratio wing_taper_ratio wing_flap_span_ratio design_wing_loading wing_thickness_to_chord_root wing_span fuselage_avg_diameter wing_center_chord landing_lift_coefficient_max : ℝ) : ℝ :=
  (((wing_high_lift_mass_coefficient * (((119 / 50) * ((vflap_2 sea_level_density
    design_wing_loading landing_lift_coefficient_max) ^ ((69 / 50) : ℝ))) / (100 ^ ((119 / 50) :
    ℝ)))) * (dvflap_dcmfl sea_level_density design_wing_loading landing_lift_coefficient_max)) *
    ((sflap_2 wing_area wing_flap_chord_ratio wing_taper_ratio wing_flap_span_ratio
    wing_thickness_to_chord_root wing_span fuselage_avg_diameter wing_center_chord) ^ ((119 /
    100) : ℝ))) / (wing_num_flap_segments ^ ((119 / 200) : ℝ))

/-- Partial of `wing_high_lift_mass` with respect to `wing_flap_chord_ratio` as set by `HighLiftMass`, aviary/subsystems/mass/gasp_based/fixed.py:2106 -/
noncomputable def J_wing_high_lift_mass__wing_flap_chord_ratio (wing_num_flap_segments sea_level_density wing_high_lift_mass_coefficient wing_area wing_flap_chord_ratio wing_taper_ratio wing_flap_span_ratio design_wing_loading wing_thickness_to_chord_root wing_span fuselage_avg_diameter wing_center_chord landing_lift_coefficient_max : ℝ) : ℝ :=
  (((wing_high_lift_mass_coefficient * (((vflap_2 sea_level_density design_wing_loading
    landing_lift_coefficient_max) / 100) ^ ((119 / 50) : ℝ))) * ((119 / 100) * ((sflap_2
    wing_area wing_flap_chord_ratio wing_taper_ratio wing_flap_span_ratio
    wing_thickness_to_chord_root wing_span fuselage_avg_diameter wing_center_chord) ^ ((19 /
    100) : ℝ)))) * (dsflap_dfcr wing_area wing_taper_ratio wing_flap_span_ratio
    wing_thickness_to_chord_root wing_span fuselage_avg_diameter wing_center_chord)) /
    (wing_num_flap_segments ^ ((119 / 200) : ℝ))

/-- Partial of `wing_high_lift_mass` with respect to `wing_slat_chord_ratio` as set by `HighLiftMass`, aviary/subsystems/mass/gasp_based/fixed.py:2110 -/
noncomputable def J_wing_high_lift_mass__wing_slat_chord_ratio (wing_area wing_slat_chord_ratio wing_taper_ratio wing_slat_span_ratio wing_thickness_to_chord_root wing_span fuselage_avg_diameter wing_center_chord : ℝ) : ℝ :=
  ((4633 / 1250) * ((sle_2 wing_area wing_slat_chord_ratio wing_taper_ratio wing_slat_span_ratio
    wing_thickness_to_chord_root wing_span fuselage_avg_diameter wing_center_chord) ^ ((13 /
    100) : ℝ))) * (dsle_dscr wing_area wing_taper_ratio wing_slat_span_ratio
    wing_thickness_to_chord_root wing_span fuselage_avg_diameter wing_center_chord)

/-- Partial of `wing_high_lift_mass` with respect to `wing_area` as set by `HighLiftMass`, aviary/subsystems/mass/gasp_based/fixed.py:2114 -/
noncomputable def J_wing_high_lift_mass__wing_area (wing_num_flap_segments sea_level_density wing_high_lift_mass_coefficient wing_area wing_slat_chord_ratio wing_flap_chord_ratio wing_taper_ratio wing_flap_span_ratio wing_slat_span_ratio design_wing_loading wing_thickness_to_chord_root wing_span fuselage_avg_diameter wing_center_chord landing_lift_coefficient_max : ℝ) : ℝ :=
  ((((wing_high_lift_mass_coefficient * (((vflap_2 sea_level_density design_wing_loading
    landing_lift_coefficient_max) / 100) ^ ((119 / 50) : ℝ))) * ((119 / 100) * ((sflap_2
    wing_area wing_flap_chord_ratio wing_taper_ratio wing_flap_span_ratio
    wing_thickness_to_chord_root wing_span fuselage_avg_diameter wing_center_chord) ^ ((19 /
    100) : ℝ)))) * (dsflap_dwa wing_flap_chord_ratio wing_taper_ratio wing_flap_span_ratio
    wing_thickness_to_chord_root wing_span fuselage_avg_diameter wing_center_chord)) /
    (wing_num_flap_segments ^ ((119 / 200) : ℝ))) + (((4633 / 1250) * ((sle_2 wing_area
    wing_slat_chord_ratio wing_taper_ratio wing_slat_span_ratio wing_thickness_to_chord_root
    wing_span fuselage_avg_diameter wing_center_chord) ^ ((13 / 100) : ℝ))) * (dsle_dwa
    wing_slat_chord_ratio wing_taper_ratio wing_slat_span_ratio wing_thickness_to_chord_root
    wing_span fuselage_avg_diameter wing_center_chord))

/-- Partial of `wing_high_lift_mass` with respect to `wing_flap_span_ratio` as set by `HighLiftMass`, aviary/subsystems/mass/gasp_based/fixed.py:2118 -/
noncomputable def J_wing_high_lift_mass__wing_flap_span_ratio (wing_num_flap_segments sea_level_density wing_high_lift_mass_coefficient wing_area wing_flap_chord_ratio wing_taper_ratio wing_flap_span_ratio design_wing_loading wing_thickness_to_chord_root wing_span fuselage_avg_diameter wing_center_chord landing_lift_coefficient_max : ℝ) : ℝ :=
  (((wing_high_lift_mass_coefficient * (((vflap_2 sea_level_density design_wing_loading
    landing_lift_coefficient_max) / 100) ^ ((119 / 50) : ℝ))) * ((119 / 100) * ((sflap_2
    wing_area wing_flap_chord_ratio wing_taper_ratio wing_flap_span_ratio
    wing_thickness_to_chord_root wing_span fuselage_avg_diameter wing_center_chord) ^ ((19 /
    100) : ℝ)))) * (dsflap_dfsr wing_area wing_flap_chord_ratio wing_taper_ratio
    wing_flap_span_ratio)) / (wing_num_flap_segments ^ ((119 / 200) : ℝ))

/-- Partial of `wing_high_lift_mass` with respect to `wing_slat_span_ratio` as set by `HighLiftMass`, aviary/subsystems/mass/gasp_based/fixed.py:2122 -/
noncomputable def J_wing_high_lift_mass__wing_slat_span_ratio (wing_area wing_slat_chord_ratio wing_taper_ratio wing_slat_span_ratio wing_thickness_to_chord_root wing_span fuselage_avg_diameter wing_center_chord : ℝ) : ℝ :=
  ((4633 / 1250) * ((sle_2 wing_area wing_slat_chord_ratio wing_taper_ratio wing_slat_span_ratio
    wing_thickness_to_chord_root wing_span fuselage_avg_diameter wing_center_chord) ^ ((13 /
    100) : ℝ))) * (dsle_dssr wing_area wing_slat_chord_ratio wing_taper_ratio
    wing_thickness_to_chord_root wing_span fuselage_avg_diameter wing_center_chord)

/-- Partial of `wing_high_lift_mass` with respect to `wing_taper_ratio` as set by `HighLiftMass`, aviary/subsystems/mass/gasp_based/fixed.py:2126 -/
noncomputable def J_wing_high_lift_mass__wing_taper_ratio (wing_num_flap_segments sea_level_density wing_high_lift_mass_coefficient wing_area wing_slat_chord_ratio wing_flap_chord_ratio wing_taper_ratio wing_flap_span_ratio wing_slat_span_ratio design_wing_loading wing_thickness_to_chord_root wing_span fuselage_avg_diameter wing_center_chord landing_lift_coefficient_max : ℝ) : ℝ :=
  ((((wing_high_lift_mass_coefficient * (((vflap_2 sea_level_density design_wing_loading
    landing_lift_coefficient_max) / 100) ^ ((119 / 50) : ℝ))) * ((119 / 100) * ((sflap_2
    wing_area wing_flap_chord_ratio wing_taper_ratio wing_flap_span_ratio
    wing_thickness_to_chord_root wing_span fuselage_avg_diameter wing_center_chord) ^ ((19 /
    100) : ℝ)))) * (dsflap_dtr wing_area wing_flap_chord_ratio wing_taper_ratio
    wing_flap_span_ratio wing_thickness_to_chord_root wing_span fuselage_avg_diameter
    wing_center_chord)) / (wing_num_flap_segments ^ ((119 / 200) : ℝ))) + (((4633 / 1250) *
    ((sle_2 wing_area wing_slat_chord_ratio wing_taper_ratio wing_slat_span_ratio
    wing_thickness_to_chord_root wing_span fuselage_avg_diameter wing_center_chord) ^ ((13 /
    100) : ℝ))) * (dsle_dtr wing_area wing_slat_chord_ratio wing_taper_ratio
    wing_slat_span_ratio wing_thickness_to_chord_root wing_span fuselage_avg_diameter
    wing_center_chord))

/-- Partial of `wing_high_lift_mass` with respect to `wing_span` as set by `HighLiftMass`, aviary/subsystems/mass/gasp_based/fixed.py:2130 -/
noncomputable def J_wing_high_lift_mass__wing_span (wing_num_flap_segments sea_level_density wing_high_lift_mass_coefficient wing_area wing_slat_chord_ratio wing_flap_chord_ratio wing_taper_ratio wing_flap_span_ratio wing_slat_span_ratio design_wing_loading wing_thickness_to_chord_root wing_span fuselage_avg_diameter wing_center_chord landing_lift_coefficient_max : ℝ) : ℝ :=
  (((((wing_high_lift_mass_coefficient * (((vflap_2 sea_level_density design_wing_loading
    landing_lift_coefficient_max) / 100) ^ ((119 / 50) : ℝ))) * ((119 / 100) * ((sflap_2
    wing_area wing_flap_chord_ratio wing_taper_ratio wing_flap_span_ratio
    wing_thickness_to_chord_root wing_span fuselage_avg_diameter wing_center_chord) ^ ((19 /
    100) : ℝ)))) * (dsflap_dbtsr wing_area wing_flap_chord_ratio wing_taper_ratio
    wing_thickness_to_chord_root wing_span fuselage_avg_diameter wing_center_chord)) *
    (dbtsr_dwingspan wing_thickness_to_chord_root wing_span fuselage_avg_diameter
    wing_center_chord)) / (wing_num_flap_segments ^ ((119 / 200) : ℝ))) + ((((4633 / 1250) *
    ((sle_2 wing_area wing_slat_chord_ratio wing_taper_ratio wing_slat_span_ratio
    wing_thickness_to_chord_root wing_span fuselage_avg_diameter wing_center_chord) ^ ((13 /
    100) : ℝ))) * (dsle_dbtsr wing_area wing_slat_chord_ratio wing_taper_ratio
    wing_slat_span_ratio)) * (dbtsr_dwingspan wing_thickness_to_chord_root wing_span
    fuselage_avg_diameter wing_center_chord))

/-- Partial of `wing_high_lift_mass` with respect to `wing_thickness_to_chord_root` as set by `HighLiftMass`, aviary/subsystems/mass/gasp_based/fixed.py:2134 -/
noncomputable def J_wing_high_lift_mass__wing_thickness_to_chord_root (wing_num_flap_segments sea_level_density wing_high_lift_mass_coefficient wing_area wing_slat_chord_ratio wing_flap_chord_ratio wing_taper_ratio wing_flap_span_ratio wing_slat_span_ratio design_wing_loading wing_thickness_to_chord_root wing_span fuselage_avg_diameter wing_center_chord landing_lift_coefficient_max : ℝ) : ℝ :=
  (((((wing_high_lift_mass_coefficient * (((vflap_2 sea_level_density design_wing_loading
    landing_lift_coefficient_max) / 100) ^ ((119 / 50) : ℝ))) * ((119 / 100) * ((sflap_2
    wing_area wing_flap_chord_ratio wing_taper_ratio wing_flap_span_ratio
    wing_thickness_to_chord_root wing_span fuselage_avg_diameter wing_center_chord) ^ ((19 /
    100) : ℝ)))) * (dsflap_dbtsr wing_area wing_flap_chord_ratio wing_taper_ratio
    wing_thickness_to_chord_root wing_span fuselage_avg_diameter wing_center_chord)) *
    (dbtsr_dtcrr wing_thickness_to_chord_root wing_span fuselage_avg_diameter
    wing_center_chord)) / (wing_num_flap_segments ^ ((119 / 200) : ℝ))) + ((((4633 / 1250) *
    ((sle_2 wing_area wing_slat_chord_ratio wing_taper_ratio wing_slat_span_ratio
    wing_thickness_to_chord_root wing_span fuselage_avg_diameter wing_center_chord) ^ ((13 /
    100) : ℝ))) * (dsle_dbtsr wing_area wing_slat_chord_ratio wing_taper_ratio
    wing_slat_span_ratio)) * (dbtsr_dtcrr wing_thickness_to_chord_root wing_span
    fuselage_avg_diameter wing_center_chord))

/-- Partial of `wing_high_lift_mass` with respect to `wing_center_chord` as set by `HighLiftMass`, aviary/subsystems/mass/gasp_based/fixed.py:2139 -/
noncomputable def J_wing_high_lift_mass__wing_center_chord (wing_num_flap_segments sea_level_density wing_high_lift_mass_coefficient wing_area wing_slat_chord_ratio wing_flap_chord_ratio wing_taper_ratio wing_flap_span_ratio wing_slat_span_ratio design_wing_loading wing_thickness_to_chord_root wing_span fuselage_avg_diameter wing_center_chord landing_lift_coefficient_max : ℝ) : ℝ :=
  (((((wing_high_lift_mass_coefficient * (((vflap_2 sea_level_density design_wing_loading
    landing_lift_coefficient_max) / 100) ^ ((119 / 50) : ℝ))) * ((119 / 100) * ((sflap_2
    wing_area wing_flap_chord_ratio wing_taper_ratio wing_flap_span_ratio
    wing_thickness_to_chord_root wing_span fuselage_avg_diameter wing_center_chord) ^ ((19 /
    100) : ℝ)))) * (dsflap_dbtsr wing_area wing_flap_chord_ratio wing_taper_ratio
    wing_thickness_to_chord_root wing_span fuselage_avg_diameter wing_center_chord)) *
    (dbtsr_dcc wing_thickness_to_chord_root wing_span fuselage_avg_diameter wing_center_chord))
    / (wing_num_flap_segments ^ ((119 / 200) : ℝ))) + ((((4633 / 1250) * ((sle_2 wing_area
    wing_slat_chord_ratio wing_taper_ratio wing_slat_span_ratio wing_thickness_to_chord_root
    wing_span fuselage_avg_diameter wing_center_chord) ^ ((13 / 100) : ℝ))) * (dsle_dbtsr
    wing_area wing_slat_chord_ratio wing_taper_ratio wing_slat_span_ratio)) * (dbtsr_dcc
    wing_thickness_to_chord_root wing_span fuselage_avg_diameter wing_center_chord))

/-- Partial of `wing_high_lift_mass` with respect to `fuselage_avg_diameter` as set by `HighLiftMass`, aviary/subsystems/mass/gasp_based/fixed.py:2143 -/
noncomputable def J_wing_high_lift_mass__fuselage_avg_diameter (wing_num_flap_segments sea_level_density wing_high_lift_mass_coefficient wing_area wing_slat_chord_ratio wing_flap_chord_ratio wing_taper_ratio wing_flap_span_ratio wing_slat_span_ratio design_wing_loading wing_thickness_to_chord_root wing_span fuselage_avg_diameter wing_center_chord landing_lift_coefficient_max : ℝ) : ℝ :=
  (((((wing_high_lift_mass_coefficient * (((vflap_2 sea_level_density design_wing_loading
    landing_lift_coefficient_max) / 100) ^ ((119 / 50) : ℝ))) * ((119 / 100) * ((sflap_2
    wing_area wing_flap_chord_ratio wing_taper_ratio wing_flap_span_ratio
    wing_thickness_to_chord_root wing_span fuselage_avg_diameter wing_center_chord) ^ ((19 /
    100) : ℝ)))) * (dsflap_dbtsr wing_area wing_flap_chord_ratio wing_taper_ratio
    wing_thickness_to_chord_root wing_span fuselage_avg_diameter wing_center_chord)) *
    (dbtsr_dcw wing_thickness_to_chord_root wing_span fuselage_avg_diameter wing_center_chord))
    / (wing_num_flap_segments ^ ((119 / 200) : ℝ))) + ((((4633 / 1250) * ((sle_2 wing_area
    wing_slat_chord_ratio wing_taper_ratio wing_slat_span_ratio wing_thickness_to_chord_root
    wing_span fuselage_avg_diameter wing_center_chord) ^ ((13 / 100) : ℝ))) * (dsle_dbtsr
    wing_area wing_slat_chord_ratio wing_taper_ratio wing_slat_span_ratio)) * (dbtsr_dcw
    wing_thickness_to_chord_root wing_span fuselage_avg_diameter wing_center_chord))

theorem d_slat_mass__wing_area (wing_area wing_slat_chord_ratio wing_taper_ratio
    wing_slat_span_ratio wing_thickness_to_chord_root wing_span fuselage_avg_diameter
    wing_center_chord : ℝ) (h0 : 0 < wing_taper_ratio) (h1 : 0 < wing_thickness_to_chord_root) (h2
    : 0 < wing_center_chord) (h3 : 0 < fuselage_avg_diameter - (wing_thickness_to_chord_root *
    wing_center_chord)) (h4 : 0 < wing_span) (h5 : 0 < wing_slat_chord_ratio) (h6 : 0 < wing_area)
    (h7 : 0 < wing_slat_span_ratio) (h8 : 0 < 2 - ((1 - wing_taper_ratio) * ((99 / 100) + (((2 *
    (sqrt ((wing_thickness_to_chord_root * wing_center_chord) * (fuselage_avg_diameter -
    (wing_thickness_to_chord_root * wing_center_chord))))) + (2 / 5)) / wing_span)))) (h9 : 0 < 2
    - ((1 - wing_taper_ratio) * ((99 / 100) + (((2 * (sqrt ((wing_thickness_to_chord_root *
    wing_center_chord) * (fuselage_avg_diameter - (wing_thickness_to_chord_root *
    wing_center_chord))))) + (2 / 5)) / wing_span)))) :
    HasDerivAt (fun t => out_slat_mass t wing_slat_chord_ratio wing_taper_ratio wing_slat_span_ratio wing_thickness_to_chord_root wing_span fuselage_avg_diameter wing_center_chord) (J_slat_mass__wing_area wing_area wing_slat_chord_ratio wing_taper_ratio wing_slat_span_ratio wing_thickness_to_chord_root wing_span fuselage_avg_diameter wing_center_chord) wing_area := by
  have hf8 : 0 < 2 - ((1 - wing_taper_ratio) * ((99 / 100) + (body_to_span_ratio wing_thickness_to_chord_root wing_span fuselage_avg_diameter wing_center_chord))) := by simp only [dsle_dwa, sle_2, body_to_span_ratio_2, u1, wled, sle, body_to_span_ratio]; exact h8
  have hf9 : 0 < 2 - ((1 - wing_taper_ratio) * ((99 / 100) + (body_to_span_ratio_2 wing_thickness_to_chord_root wing_span fuselage_avg_diameter wing_center_chord))) := by simp only [dsle_dwa, sle_2, body_to_span_ratio_2, u1, wled, sle, body_to_span_ratio]; exact h9
  have hp0 : 0 < sle wing_area wing_slat_chord_ratio wing_taper_ratio wing_slat_span_ratio wing_thickness_to_chord_root wing_span fuselage_avg_diameter wing_center_chord := by simp only [dsle_dwa, sle_2, body_to_span_ratio_2, u1, wled, sle, body_to_span_ratio]; comp_side
  have hp1 : 0 < sle_2 wing_area wing_slat_chord_ratio wing_taper_ratio wing_slat_span_ratio wing_thickness_to_chord_root wing_span fuselage_avg_diameter wing_center_chord := by simp only [dsle_dwa, sle_2, body_to_span_ratio_2, u1, wled, sle, body_to_span_ratio]; comp_side
  have hp2 : 0 < u1 wing_thickness_to_chord_root fuselage_avg_diameter wing_center_chord := by simp only [dsle_dwa, sle_2, body_to_span_ratio_2, u1, wled, sle, body_to_span_ratio]; comp_side
  have e0 : ∀ x : ℝ, 0 < x → x ^ ((113 / 100) : ℝ) = x ^ ((13 / 100) : ℝ) * x ^ 1 := fun x hx => rpow_up hx 1 (by norm_num)
  obtain ⟨D_sle, hD_sle, k_sle⟩ : ∃ D : ℝ, D = ((wing_slat_chord_ratio / (1 + wing_taper_ratio)) * wing_slat_span_ratio) * (2 - ((1 - wing_taper_ratio) * ((99 / 100) + (body_to_span_ratio wing_thickness_to_chord_root wing_span fuselage_avg_diameter wing_center_chord)))) ∧
      HasDerivAt (fun t => sle t wing_slat_chord_ratio wing_taper_ratio wing_slat_span_ratio wing_thickness_to_chord_root wing_span fuselage_avg_diameter wing_center_chord) D wing_area := by
    refine ⟨_, rfl, ?_⟩
    simp only [sle]
    apply hasDerivAt_of_eq; on_goal 1 => (repeat' comp_step)
    all_goals try first | comp_side | (apply HasDerivAt.continuousAt; (repeat' comp_step); all_goals comp_side)
    all_goals try simp (disch := first | assumption | positivity) only [e0, div_mul_eq_div_div, div_half, inv_half]
    all_goals try simp only [mul_zero, zero_mul, add_zero, zero_add, sub_zero, zero_sub, mul_one, one_mul, sub_self]
    all_goals try push_cast
    all_goals comp_eq
  obtain ⟨D_wled, hD_wled, k_wled⟩ : ∃ D : ℝ, D = (82 / 25) * (((113 / 100) * ((sle wing_area wing_slat_chord_ratio wing_taper_ratio wing_slat_span_ratio wing_thickness_to_chord_root wing_span fuselage_avg_diameter wing_center_chord) ^ ((13 / 100) : ℝ))) * D_sle) ∧
      HasDerivAt (fun t => wled t wing_slat_chord_ratio wing_taper_ratio wing_slat_span_ratio wing_thickness_to_chord_root wing_span fuselage_avg_diameter wing_center_chord) D wing_area := by
    refine ⟨_, rfl, ?_⟩
    simp only [wled]
    apply hasDerivAt_of_eq; on_goal 1 => (repeat' comp_step)
    all_goals try first | comp_side | (apply HasDerivAt.continuousAt; (repeat' comp_step); all_goals comp_side)
    all_goals try simp (disch := first | assumption | positivity) only [e0, div_mul_eq_div_div, div_half, inv_half]
    all_goals try simp only [mul_zero, zero_mul, add_zero, zero_add, sub_zero, zero_sub, mul_one, one_mul, sub_self]
    all_goals try push_cast
    all_goals comp_eq
  have al_sle_2 : sle_2 wing_area wing_slat_chord_ratio wing_taper_ratio wing_slat_span_ratio wing_thickness_to_chord_root wing_span fuselage_avg_diameter wing_center_chord = sle wing_area wing_slat_chord_ratio wing_taper_ratio wing_slat_span_ratio wing_thickness_to_chord_root wing_span fuselage_avg_diameter wing_center_chord := rfl
  have al_body_to_span_ratio_2 : body_to_span_ratio_2 wing_thickness_to_chord_root wing_span fuselage_avg_diameter wing_center_chord = body_to_span_ratio wing_thickness_to_chord_root wing_span fuselage_avg_diameter wing_center_chord := rfl
  try simp only [out_slat_mass, J_slat_mass__wing_area, dsle_dwa, u1, al_sle_2, al_body_to_span_ratio_2]
  all_goals (apply hasDerivAt_of_eq; on_goal 1 => (repeat' comp_step))
  all_goals try first | comp_side | (apply HasDerivAt.continuousAt; (repeat' comp_step); all_goals comp_side)
  all_goals try simp only [hD_sle, hD_wled]
  all_goals try simp (disch := first | assumption | positivity) only [e0, div_mul_eq_div_div, div_half, inv_half]
  all_goals try simp only [mul_zero, zero_mul, add_zero, zero_add, sub_zero, zero_sub, mul_one, one_mul, sub_self]
  all_goals try push_cast
  all_goals comp_eq

theorem d_slat_mass__wing_slat_chord_ratio (wing_area wing_slat_chord_ratio wing_taper_ratio
    wing_slat_span_ratio wing_thickness_to_chord_root wing_span fuselage_avg_diameter
    wing_center_chord : ℝ) (h0 : 0 < wing_taper_ratio) (h1 : 0 < wing_thickness_to_chord_root) (h2
    : 0 < wing_center_chord) (h3 : 0 < fuselage_avg_diameter - (wing_thickness_to_chord_root *
    wing_center_chord)) (h4 : 0 < wing_span) (h5 : 0 < wing_slat_chord_ratio) (h6 : 0 < wing_area)
    (h7 : 0 < wing_slat_span_ratio) (h8 : 0 < 2 - ((1 - wing_taper_ratio) * ((99 / 100) + (((2 *
    (sqrt ((wing_thickness_to_chord_root * wing_center_chord) * (fuselage_avg_diameter -
    (wing_thickness_to_chord_root * wing_center_chord))))) + (2 / 5)) / wing_span)))) (h9 : 0 < 2
    - ((1 - wing_taper_ratio) * ((99 / 100) + (((2 * (sqrt ((wing_thickness_to_chord_root *
    wing_center_chord) * (fuselage_avg_diameter - (wing_thickness_to_chord_root *
    wing_center_chord))))) + (2 / 5)) / wing_span)))) :
    HasDerivAt (fun t => out_slat_mass wing_area t wing_taper_ratio wing_slat_span_ratio wing_thickness_to_chord_root wing_span fuselage_avg_diameter wing_center_chord) (J_slat_mass__wing_slat_chord_ratio wing_area wing_slat_chord_ratio wing_taper_ratio wing_slat_span_ratio wing_thickness_to_chord_root wing_span fuselage_avg_diameter wing_center_chord) wing_slat_chord_ratio := by
  have hf8 : 0 < 2 - ((1 - wing_taper_ratio) * ((99 / 100) + (body_to_span_ratio wing_thickness_to_chord_root wing_span fuselage_avg_diameter wing_center_chord))) := by simp only [dsle_dscr, sle_2, body_to_span_ratio_2, u1, wled, sle, body_to_span_ratio]; exact h8
  have hf9 : 0 < 2 - ((1 - wing_taper_ratio) * ((99 / 100) + (body_to_span_ratio_2 wing_thickness_to_chord_root wing_span fuselage_avg_diameter wing_center_chord))) := by simp only [dsle_dscr, sle_2, body_to_span_ratio_2, u1, wled, sle, body_to_span_ratio]; exact h9
  have hp0 : 0 < sle wing_area wing_slat_chord_ratio wing_taper_ratio wing_slat_span_ratio wing_thickness_to_chord_root wing_span fuselage_avg_diameter wing_center_chord := by simp only [dsle_dscr, sle_2, body_to_span_ratio_2, u1, wled, sle, body_to_span_ratio]; comp_side
  have hp1 : 0 < sle_2 wing_area wing_slat_chord_ratio wing_taper_ratio wing_slat_span_ratio wing_thickness_to_chord_root wing_span fuselage_avg_diameter wing_center_chord := by simp only [dsle_dscr, sle_2, body_to_span_ratio_2, u1, wled, sle, body_to_span_ratio]; comp_side
  have hp2 : 0 < u1 wing_thickness_to_chord_root fuselage_avg_diameter wing_center_chord := by simp only [dsle_dscr, sle_2, body_to_span_ratio_2, u1, wled, sle, body_to_span_ratio]; comp_side
  have e0 : ∀ x : ℝ, 0 < x → x ^ ((113 / 100) : ℝ) = x ^ ((13 / 100) : ℝ) * x ^ 1 := fun x hx => rpow_up hx 1 (by norm_num)
  obtain ⟨D_sle, hD_sle, k_sle⟩ : ∃ D : ℝ, D = ((wing_area / (1 + wing_taper_ratio)) * wing_slat_span_ratio) * (2 - ((1 - wing_taper_ratio) * ((99 / 100) + (body_to_span_ratio wing_thickness_to_chord_root wing_span fuselage_avg_diameter wing_center_chord)))) ∧
      HasDerivAt (fun t => sle wing_area t wing_taper_ratio wing_slat_span_ratio wing_thickness_to_chord_root wing_span fuselage_avg_diameter wing_center_chord) D wing_slat_chord_ratio := by
    refine ⟨_, rfl, ?_⟩
    simp only [sle]
    apply hasDerivAt_of_eq; on_goal 1 => (repeat' comp_step)
    all_goals try first | comp_side | (apply HasDerivAt.continuousAt; (repeat' comp_step); all_goals comp_side)
    all_goals try simp (disch := first | assumption | positivity) only [e0, div_mul_eq_div_div, div_half, inv_half]
    all_goals try simp only [mul_zero, zero_mul, add_zero, zero_add, sub_zero, zero_sub, mul_one, one_mul, sub_self]
    all_goals try push_cast
    all_goals comp_eq
  obtain ⟨D_wled, hD_wled, k_wled⟩ : ∃ D : ℝ, D = (82 / 25) * (((113 / 100) * ((sle wing_area wing_slat_chord_ratio wing_taper_ratio wing_slat_span_ratio wing_thickness_to_chord_root wing_span fuselage_avg_diameter wing_center_chord) ^ ((13 / 100) : ℝ))) * D_sle) ∧
      HasDerivAt (fun t => wled wing_area t wing_taper_ratio wing_slat_span_ratio wing_thickness_to_chord_root wing_span fuselage_avg_diameter wing_center_chord) D wing_slat_chord_ratio := by
    refine ⟨_, rfl, ?_⟩
    simp only [wled]
    apply hasDerivAt_of_eq; on_goal 1 => (repeat' comp_step)
    all_goals try first | comp_side | (apply HasDerivAt.continuousAt; (repeat' comp_step); all_goals comp_side)
    all_goals try simp (disch := first | assumption | positivity) only [e0, div_mul_eq_div_div, div_half, inv_half]
    all_goals try simp only [mul_zero, zero_mul, add_zero, zero_add, sub_zero, zero_sub, mul_one, one_mul, sub_self]
    all_goals try push_cast
    all_goals comp_eq
  have al_sle_2 : sle_2 wing_area wing_slat_chord_ratio wing_taper_ratio wing_slat_span_ratio wing_thickness_to_chord_root wing_span fuselage_avg_diameter wing_center_chord = sle wing_area wing_slat_chord_ratio wing_taper_ratio wing_slat_span_ratio wing_thickness_to_chord_root wing_span fuselage_avg_diameter wing_center_chord := rfl
  have al_body_to_span_ratio_2 : body_to_span_ratio_2 wing_thickness_to_chord_root wing_span fuselage_avg_diameter wing_center_chord = body_to_span_ratio wing_thickness_to_chord_root wing_span fuselage_avg_diameter wing_center_chord := rfl
  try simp only [out_slat_mass, J_slat_mass__wing_slat_chord_ratio, dsle_dscr, u1, al_sle_2, al_body_to_span_ratio_2]
  all_goals (apply hasDerivAt_of_eq; on_goal 1 => (repeat' comp_step))
  all_goals try first | comp_side | (apply HasDerivAt.continuousAt; (repeat' comp_step); all_goals comp_side)
  all_goals try simp only [hD_sle, hD_wled]
  all_goals try simp (disch := first | assumption | positivity) only [e0, div_mul_eq_div_div, div_half, inv_half]
  all_goals try simp only [mul_zero, zero_mul, add_zero, zero_add, sub_zero, zero_sub, mul_one, one_mul, sub_self]
  all_goals try push_cast
  all_goals comp_eq

theorem d_slat_mass__wing_taper_ratio (wing_area wing_slat_chord_ratio wing_taper_ratio
    wing_slat_span_ratio wing_thickness_to_chord_root wing_span fuselage_avg_diameter
    wing_center_chord : ℝ) (h0 : 0 < wing_taper_ratio) (h1 : 0 < wing_thickness_to_chord_root) (h2
    : 0 < wing_center_chord) (h3 : 0 < fuselage_avg_diameter - (wing_thickness_to_chord_root *
    wing_center_chord)) (h4 : 0 < wing_span) (h5 : 0 < wing_slat_chord_ratio) (h6 : 0 < wing_area)
    (h7 : 0 < wing_slat_span_ratio) (h8 : 0 < 2 - ((1 - wing_taper_ratio) * ((99 / 100) + (((2 *
    (sqrt ((wing_thickness_to_chord_root * wing_center_chord) * (fuselage_avg_diameter -
    (wing_thickness_to_chord_root * wing_center_chord))))) + (2 / 5)) / wing_span)))) (h9 : 0 < 2
    - ((1 - wing_taper_ratio) * ((99 / 100) + (((2 * (sqrt ((wing_thickness_to_chord_root *
    wing_center_chord) * (fuselage_avg_diameter - (wing_thickness_to_chord_root *
    wing_center_chord))))) + (2 / 5)) / wing_span)))) :
    HasDerivAt (fun t => out_slat_mass wing_area wing_slat_chord_ratio t wing_slat_span_ratio wing_thickness_to_chord_root wing_span fuselage_avg_diameter wing_center_chord) (J_slat_mass__wing_taper_ratio wing_area wing_slat_chord_ratio wing_taper_ratio wing_slat_span_ratio wing_thickness_to_chord_root wing_span fuselage_avg_diameter wing_center_chord) wing_taper_ratio := by
  have hf8 : 0 < 2 - ((1 - wing_taper_ratio) * ((99 / 100) + (body_to_span_ratio wing_thickness_to_chord_root wing_span fuselage_avg_diameter wing_center_chord))) := by simp only [dsle_dtr, sle_2, body_to_span_ratio_2, u1, wled, sle, body_to_span_ratio]; exact h8
  have hf9 : 0 < 2 - ((1 - wing_taper_ratio) * ((99 / 100) + (body_to_span_ratio_2 wing_thickness_to_chord_root wing_span fuselage_avg_diameter wing_center_chord))) := by simp only [dsle_dtr, sle_2, body_to_span_ratio_2, u1, wled, sle, body_to_span_ratio]; exact h9
  have hp0 : 0 < sle wing_area wing_slat_chord_ratio wing_taper_ratio wing_slat_span_ratio wing_thickness_to_chord_root wing_span fuselage_avg_diameter wing_center_chord := by simp only [dsle_dtr, sle_2, body_to_span_ratio_2, u1, wled, sle, body_to_span_ratio]; comp_side
  have hp1 : 0 < sle_2 wing_area wing_slat_chord_ratio wing_taper_ratio wing_slat_span_ratio wing_thickness_to_chord_root wing_span fuselage_avg_diameter wing_center_chord := by simp only [dsle_dtr, sle_2, body_to_span_ratio_2, u1, wled, sle, body_to_span_ratio]; comp_side
  have hp2 : 0 < u1 wing_thickness_to_chord_root fuselage_avg_diameter wing_center_chord := by simp only [dsle_dtr, sle_2, body_to_span_ratio_2, u1, wled, sle, body_to_span_ratio]; comp_side
  have e0 : ∀ x : ℝ, 0 < x → x ^ ((113 / 100) : ℝ) = x ^ ((13 / 100) : ℝ) * x ^ 1 := fun x hx => rpow_up hx 1 (by norm_num)
  obtain ⟨D_sle, hD_sle, k_sle⟩ : ∃ D : ℝ, D = (((-((wing_slat_chord_ratio * wing_area) / ((1 + wing_taper_ratio) ^ 2))) * wing_slat_span_ratio) * (2 - ((1 - wing_taper_ratio) * ((99 / 100) + (body_to_span_ratio wing_thickness_to_chord_root wing_span fuselage_avg_diameter wing_center_chord))))) + ((((wing_slat_chord_ratio * wing_area) / (1 + wing_taper_ratio)) * wing_slat_span_ratio) * (-((-1) * ((99 / 100) + (body_to_span_ratio wing_thickness_to_chord_root wing_span fuselage_avg_diameter wing_center_chord))))) ∧
      HasDerivAt (fun t => sle wing_area wing_slat_chord_ratio t wing_slat_span_ratio wing_thickness_to_chord_root wing_span fuselage_avg_diameter wing_center_chord) D wing_taper_ratio := by
    refine ⟨_, rfl, ?_⟩
    simp only [sle]
    apply hasDerivAt_of_eq; on_goal 1 => (repeat' comp_step)
    all_goals try first | comp_side | (apply HasDerivAt.continuousAt; (repeat' comp_step); all_goals comp_side)
    all_goals try simp (disch := first | assumption | positivity) only [e0, div_mul_eq_div_div, div_half, inv_half]
    all_goals try simp only [mul_zero, zero_mul, add_zero, zero_add, sub_zero, zero_sub, mul_one, one_mul, sub_self]
    all_goals try push_cast
    all_goals comp_eq
  obtain ⟨D_wled, hD_wled, k_wled⟩ : ∃ D : ℝ, D = (82 / 25) * (((113 / 100) * ((sle wing_area wing_slat_chord_ratio wing_taper_ratio wing_slat_span_ratio wing_thickness_to_chord_root wing_span fuselage_avg_diameter wing_center_chord) ^ ((13 / 100) : ℝ))) * D_sle) ∧
      HasDerivAt (fun t => wled wing_area wing_slat_chord_ratio t wing_slat_span_ratio wing_thickness_to_chord_root wing_span fuselage_avg_diameter wing_center_chord) D wing_taper_ratio := by
    refine ⟨_, rfl, ?_⟩
    simp only [wled]
    apply hasDerivAt_of_eq; on_goal 1 => (repeat' comp_step)
    all_goals try first | comp_side | (apply HasDerivAt.continuousAt; (repeat' comp_step); all_goals comp_side)
    all_goals try simp (disch := first | assumption | positivity) only [e0, div_mul_eq_div_div, div_half, inv_half]
    all_goals try simp only [mul_zero, zero_mul, add_zero, zero_add, sub_zero, zero_sub, mul_one, one_mul, sub_self]
    all_goals try push_cast
    all_goals comp_eq
  have al_sle_2 : sle_2 wing_area wing_slat_chord_ratio wing_taper_ratio wing_slat_span_ratio wing_thickness_to_chord_root wing_span fuselage_avg_diameter wing_center_chord = sle wing_area wing_slat_chord_ratio wing_taper_ratio wing_slat_span_ratio wing_thickness_to_chord_root wing_span fuselage_avg_diameter wing_center_chord := rfl
  have al_body_to_span_ratio_2 : body_to_span_ratio_2 wing_thickness_to_chord_root wing_span fuselage_avg_diameter wing_center_chord = body_to_span_ratio wing_thickness_to_chord_root wing_span fuselage_avg_diameter wing_center_chord := rfl
  try simp only [out_slat_mass, J_slat_mass__wing_taper_ratio, dsle_dtr, u1, al_sle_2, al_body_to_span_ratio_2]
  all_goals (apply hasDerivAt_of_eq; on_goal 1 => (repeat' comp_step))
  all_goals try first | comp_side | (apply HasDerivAt.continuousAt; (repeat' comp_step); all_goals comp_side)
  all_goals try simp only [hD_sle, hD_wled]
  all_goals try simp (disch := first | assumption | positivity) only [e0, div_mul_eq_div_div, div_half, inv_half]
  all_goals try simp only [mul_zero, zero_mul, add_zero, zero_add, sub_zero, zero_sub, mul_one, one_mul, sub_self]
  all_goals try push_cast
  all_goals comp_eq

theorem d_slat_mass__wing_slat_span_ratio (wing_area wing_slat_chord_ratio wing_taper_ratio
    wing_slat_span_ratio wing_thickness_to_chord_root wing_span fuselage_avg_diameter
    wing_center_chord : ℝ) (h0 : 0 < wing_taper_ratio) (h1 : 0 < wing_thickness_to_chord_root) (h2
    : 0 < wing_center_chord) (h3 : 0 < fuselage_avg_diameter - (wing_thickness_to_chord_root *
    wing_center_chord)) (h4 : 0 < wing_span) (h5 : 0 < wing_slat_chord_ratio) (h6 : 0 < wing_area)
    (h7 : 0 < wing_slat_span_ratio) (h8 : 0 < 2 - ((1 - wing_taper_ratio) * ((99 / 100) + (((2 *
    (sqrt ((wing_thickness_to_chord_root * wing_center_chord) * (fuselage_avg_diameter -
    (wing_thickness_to_chord_root * wing_center_chord))))) + (2 / 5)) / wing_span)))) (h9 : 0 < 2
    - ((1 - wing_taper_ratio) * ((99 / 100) + (((2 * (sqrt ((wing_thickness_to_chord_root *
    wing_center_chord) * (fuselage_avg_diameter - (wing_thickness_to_chord_root *
    wing_center_chord))))) + (2 / 5)) / wing_span)))) :
    HasDerivAt (fun t => out_slat_mass wing_area wing_slat_chord_ratio wing_taper_ratio t wing_thickness_to_chord_root wing_span fuselage_avg_diameter wing_center_chord) (J_slat_mass__wing_slat_span_ratio wing_area wing_slat_chord_ratio wing_taper_ratio wing_slat_span_ratio wing_thickness_to_chord_root wing_span fuselage_avg_diameter wing_center_chord) wing_slat_span_ratio := by
  have hf8 : 0 < 2 - ((1 - wing_taper_ratio) * ((99 / 100) + (body_to_span_ratio wing_thickness_to_chord_root wing_span fuselage_avg_diameter wing_center_chord))) := by simp only [dsle_dssr, sle_2, body_to_span_ratio_2, u1, wled, sle, body_to_span_ratio]; exact h8
  have hf9 : 0 < 2 - ((1 - wing_taper_ratio) * ((99 / 100) + (body_to_span_ratio_2 wing_thickness_to_chord_root wing_span fuselage_avg_diameter wing_center_chord))) := by simp only [dsle_dssr, sle_2, body_to_span_ratio_2, u1, wled, sle, body_to_span_ratio]; exact h9
  have hp0 : 0 < sle wing_area wing_slat_chord_ratio wing_taper_ratio wing_slat_span_ratio wing_thickness_to_chord_root wing_span fuselage_avg_diameter wing_center_chord := by simp only [dsle_dssr, sle_2, body_to_span_ratio_2, u1, wled, sle, body_to_span_ratio]; comp_side
  have hp1 : 0 < sle_2 wing_area wing_slat_chord_ratio wing_taper_ratio wing_slat_span_ratio wing_thickness_to_chord_root wing_span fuselage_avg_diameter wing_center_chord := by simp only [dsle_dssr, sle_2, body_to_span_ratio_2, u1, wled, sle, body_to_span_ratio]; comp_side
  have hp2 : 0 < u1 wing_thickness_to_chord_root fuselage_avg_diameter wing_center_chord := by simp only [dsle_dssr, sle_2, body_to_span_ratio_2, u1, wled, sle, body_to_span_ratio]; comp_side
  have e0 : ∀ x : ℝ, 0 < x → x ^ ((113 / 100) : ℝ) = x ^ ((13 / 100) : ℝ) * x ^ 1 := fun x hx => rpow_up hx 1 (by norm_num)
  obtain ⟨D_sle, hD_sle, k_sle⟩ : ∃ D : ℝ, D = ((wing_slat_chord_ratio * wing_area) / (1 + wing_taper_ratio)) * (2 - ((1 - wing_taper_ratio) * ((99 / 100) + (body_to_span_ratio wing_thickness_to_chord_root wing_span fuselage_avg_diameter wing_center_chord)))) ∧
      HasDerivAt (fun t => sle wing_area wing_slat_chord_ratio wing_taper_ratio t wing_thickness_to_chord_root wing_span fuselage_avg_diameter wing_center_chord) D wing_slat_span_ratio := by
    refine ⟨_, rfl, ?_⟩
    simp only [sle]
    apply hasDerivAt_of_eq; on_goal 1 => (repeat' comp_step)
    all_goals try first | comp_side | (apply HasDerivAt.continuousAt; (repeat' comp_step); all_goals comp_side)
    all_goals try simp (disch := first | assumption | positivity) only [e0, div_mul_eq_div_div, div_half, inv_half]
    all_goals try simp only [mul_zero, zero_mul, add_zero, zero_add, sub_zero, zero_sub, mul_one, one_mul, sub_self]
    all_goals try push_cast
    all_goals comp_eq
  obtain ⟨D_wled, hD_wled, k_wled⟩ : ∃ D : ℝ, D = (82 / 25) * (((113 / 100) * ((sle wing_area wing_slat_chord_ratio wing_taper_ratio wing_slat_span_ratio wing_thickness_to_chord_root wing_span fuselage_avg_diameter wing_center_chord) ^ ((13 / 100) : ℝ))) * D_sle) ∧
      HasDerivAt (fun t => wled wing_area wing_slat_chord_ratio wing_taper_ratio t wing_thickness_to_chord_root wing_span fuselage_avg_diameter wing_center_chord) D wing_slat_span_ratio := by
    refine ⟨_, rfl, ?_⟩
    simp only [wled]
    apply hasDerivAt_of_eq; on_goal 1 => (repeat' comp_step)
    all_goals try first | comp_side | (apply HasDerivAt.continuousAt; (repeat' comp_step); all_goals comp_side)
    all_goals try simp (disch := first | assumption | positivity) only [e0, div_mul_eq_div_div, div_half, inv_half]
    all_goals try simp only [mul_zero, zero_mul, add_zero, zero_add, sub_zero, zero_sub, mul_one, one_mul, sub_self]
    all_goals try push_cast
    all_goals comp_eq
  have al_sle_2 : sle_2 wing_area wing_slat_chord_ratio wing_taper_ratio wing_slat_span_ratio wing_thickness_to_chord_root wing_span fuselage_avg_diameter wing_center_chord = sle wing_area wing_slat_chord_ratio wing_taper_ratio wing_slat_span_ratio wing_thickness_to_chord_root wing_span fuselage_avg_diameter wing_center_chord := rfl
  have al_body_to_span_ratio_2 : body_to_span_ratio_2 wing_thickness_to_chord_root wing_span fuselage_avg_diameter wing_center_chord = body_to_span_ratio wing_thickness_to_chord_root wing_span fuselage_avg_diameter wing_center_chord := rfl
  try simp only [out_slat_mass, J_slat_mass__wing_slat_span_ratio, dsle_dssr, u1, al_sle_2, al_body_to_span_ratio_2]
  all_goals (apply hasDerivAt_of_eq; on_goal 1 => (repeat' comp_step))
  all_goals try first | comp_side | (apply HasDerivAt.continuousAt; (repeat' comp_step); all_goals comp_side)
  all_goals try simp only [hD_sle, hD_wled]
  all_goals try simp (disch := first | assumption | positivity) only [e0, div_mul_eq_div_div, div_half, inv_half]
  all_goals try simp only [mul_zero, zero_mul, add_zero, zero_add, sub_zero, zero_sub, mul_one, one_mul, sub_self]
  all_goals try push_cast
  all_goals comp_eq

theorem d_slat_mass__wing_span (wing_area wing_slat_chord_ratio wing_taper_ratio
    wing_slat_span_ratio wing_thickness_to_chord_root wing_span fuselage_avg_diameter
    wing_center_chord : ℝ) (h0 : 0 < wing_taper_ratio) (h1 : 0 < wing_thickness_to_chord_root) (h2
    : 0 < wing_center_chord) (h3 : 0 < fuselage_avg_diameter - (wing_thickness_to_chord_root *
    wing_center_chord)) (h4 : 0 < wing_span) (h5 : 0 < wing_slat_chord_ratio) (h6 : 0 < wing_area)
    (h7 : 0 < wing_slat_span_ratio) (h8 : 0 < 2 - ((1 - wing_taper_ratio) * ((99 / 100) + (((2 *
    (sqrt ((wing_thickness_to_chord_root * wing_center_chord) * (fuselage_avg_diameter -
    (wing_thickness_to_chord_root * wing_center_chord))))) + (2 / 5)) / wing_span)))) (h9 : 0 < 2
    - ((1 - wing_taper_ratio) * ((99 / 100) + (((2 * (sqrt ((wing_thickness_to_chord_root *
    wing_center_chord) * (fuselage_avg_diameter - (wing_thickness_to_chord_root *
    wing_center_chord))))) + (2 / 5)) / wing_span)))) :
    HasDerivAt (fun t => out_slat_mass wing_area wing_slat_chord_ratio wing_taper_ratio wing_slat_span_ratio wing_thickness_to_chord_root t fuselage_avg_diameter wing_center_chord) (J_slat_mass__wing_span wing_area wing_slat_chord_ratio wing_taper_ratio wing_slat_span_ratio wing_thickness_to_chord_root wing_span fuselage_avg_diameter wing_center_chord) wing_span := by
  have hf8 : 0 < 2 - ((1 - wing_taper_ratio) * ((99 / 100) + (body_to_span_ratio wing_thickness_to_chord_root wing_span fuselage_avg_diameter wing_center_chord))) := by simp only [dbtsr_dwingspan, dsle_dbtsr, sle_2, body_to_span_ratio_2, u1, wled, sle, body_to_span_ratio]; exact h8
  have hf9 : 0 < 2 - ((1 - wing_taper_ratio) * ((99 / 100) + (body_to_span_ratio_2 wing_thickness_to_chord_root wing_span fuselage_avg_diameter wing_center_chord))) := by simp only [dbtsr_dwingspan, dsle_dbtsr, sle_2, body_to_span_ratio_2, u1, wled, sle, body_to_span_ratio]; exact h9
  have hp0 : 0 < sle wing_area wing_slat_chord_ratio wing_taper_ratio wing_slat_span_ratio wing_thickness_to_chord_root wing_span fuselage_avg_diameter wing_center_chord := by simp only [dbtsr_dwingspan, dsle_dbtsr, sle_2, body_to_span_ratio_2, u1, wled, sle, body_to_span_ratio]; comp_side
  have hp1 : 0 < sle_2 wing_area wing_slat_chord_ratio wing_taper_ratio wing_slat_span_ratio wing_thickness_to_chord_root wing_span fuselage_avg_diameter wing_center_chord := by simp only [dbtsr_dwingspan, dsle_dbtsr, sle_2, body_to_span_ratio_2, u1, wled, sle, body_to_span_ratio]; comp_side
  have hp2 : 0 < u1 wing_thickness_to_chord_root fuselage_avg_diameter wing_center_chord := by simp only [dbtsr_dwingspan, dsle_dbtsr, sle_2, body_to_span_ratio_2, u1, wled, sle, body_to_span_ratio]; comp_side
  have e0 : ∀ x : ℝ, 0 < x → x ^ ((113 / 100) : ℝ) = x ^ ((13 / 100) : ℝ) * x ^ 1 := fun x hx => rpow_up hx 1 (by norm_num)
  obtain ⟨D_body_to_span_ratio, hD_body_to_span_ratio, k_body_to_span_ratio⟩ : ∃ D : ℝ, D = -(((2 * (sqrt ((wing_thickness_to_chord_root * wing_center_chord) * (fuselage_avg_diameter - (wing_thickness_to_chord_root * wing_center_chord))))) + (2 / 5)) / (wing_span ^ 2)) ∧
      HasDerivAt (fun t => body_to_span_ratio wing_thickness_to_chord_root t fuselage_avg_diameter wing_center_chord) D wing_span := by
    refine ⟨_, rfl, ?_⟩
    simp only [body_to_span_ratio, sqrt_eq_rpow]
    apply hasDerivAt_of_eq; on_goal 1 => (repeat' comp_step)
    all_goals try first | comp_side | (apply HasDerivAt.continuousAt; (repeat' comp_step); all_goals comp_side)
    all_goals try simp (disch := first | assumption | positivity) only [e0, div_mul_eq_div_div, div_half, inv_half]
    all_goals try simp only [mul_zero, zero_mul, add_zero, zero_add, sub_zero, zero_sub, mul_one, one_mul, sub_self]
    all_goals try push_cast
    all_goals comp_eq
  obtain ⟨D_sle, hD_sle, k_sle⟩ : ∃ D : ℝ, D = (((wing_slat_chord_ratio * wing_area) / (1 + wing_taper_ratio)) * wing_slat_span_ratio) * (-((1 - wing_taper_ratio) * D_body_to_span_ratio)) ∧
      HasDerivAt (fun t => sle wing_area wing_slat_chord_ratio wing_taper_ratio wing_slat_span_ratio wing_thickness_to_chord_root t fuselage_avg_diameter wing_center_chord) D wing_span := by
    refine ⟨_, rfl, ?_⟩
    simp only [sle]
    apply hasDerivAt_of_eq; on_goal 1 => (repeat' comp_step)
    all_goals try first | comp_side | (apply HasDerivAt.continuousAt; (repeat' comp_step); all_goals comp_side)
    all_goals try simp (disch := first | assumption | positivity) only [e0, div_mul_eq_div_div, div_half, inv_half]
    all_goals try simp only [mul_zero, zero_mul, add_zero, zero_add, sub_zero, zero_sub, mul_one, one_mul, sub_self]
    all_goals try push_cast
    all_goals comp_eq
  obtain ⟨D_wled, hD_wled, k_wled⟩ : ∃ D : ℝ, D = (82 / 25) * (((113 / 100) * ((sle wing_area wing_slat_chord_ratio wing_taper_ratio wing_slat_span_ratio wing_thickness_to_chord_root wing_span fuselage_avg_diameter wing_center_chord) ^ ((13 / 100) : ℝ))) * D_sle) ∧
      HasDerivAt (fun t => wled wing_area wing_slat_chord_ratio wing_taper_ratio wing_slat_span_ratio wing_thickness_to_chord_root t fuselage_avg_diameter wing_center_chord) D wing_span := by
    refine ⟨_, rfl, ?_⟩
    simp only [wled]
    apply hasDerivAt_of_eq; on_goal 1 => (repeat' comp_step)
    all_goals try first | comp_side | (apply HasDerivAt.continuousAt; (repeat' comp_step); all_goals comp_side)
    all_goals try simp (disch := first | assumption | positivity) only [e0, div_mul_eq_div_div, div_half, inv_half]
    all_goals try simp only [mul_zero, zero_mul, add_zero, zero_add, sub_zero, zero_sub, mul_one, one_mul, sub_self]
    all_goals try push_cast
    all_goals comp_eq
  have al_sle_2 : sle_2 wing_area wing_slat_chord_ratio wing_taper_ratio wing_slat_span_ratio wing_thickness_to_chord_root wing_span fuselage_avg_diameter wing_center_chord = sle wing_area wing_slat_chord_ratio wing_taper_ratio wing_slat_span_ratio wing_thickness_to_chord_root wing_span fuselage_avg_diameter wing_center_chord := rfl
  have al_body_to_span_ratio_2 : body_to_span_ratio_2 wing_thickness_to_chord_root wing_span fuselage_avg_diameter wing_center_chord = body_to_span_ratio wing_thickness_to_chord_root wing_span fuselage_avg_diameter wing_center_chord := rfl
  try simp only [out_slat_mass, J_slat_mass__wing_span, dbtsr_dwingspan, dsle_dbtsr, u1, al_sle_2, al_body_to_span_ratio_2]
  all_goals (apply hasDerivAt_of_eq; on_goal 1 => (repeat' comp_step))
  all_goals try first | comp_side | (apply HasDerivAt.continuousAt; (repeat' comp_step); all_goals comp_side)
  all_goals try simp only [hD_body_to_span_ratio, hD_sle, hD_wled]
  all_goals try simp only [dbtsr_dwingspan, dsle_dbtsr, sle_2, body_to_span_ratio_2, u1, wled, sle, body_to_span_ratio]
  all_goals try simp (disch := first | assumption | positivity) only [e0, div_mul_eq_div_div, div_half, inv_half]
  all_goals try simp only [mul_zero, zero_mul, add_zero, zero_add, sub_zero, zero_sub, mul_one, one_mul, sub_self]
  all_goals try push_cast
  all_goals comp_eq

theorem d_flap_mass__wing_high_lift_mass_coefficient (wing_num_flap_segments sea_level_density
    wing_high_lift_mass_coefficient wing_area wing_flap_chord_ratio wing_taper_ratio
    wing_flap_span_ratio design_wing_loading wing_thickness_to_chord_root wing_span
    fuselage_avg_diameter wing_center_chord landing_lift_coefficient_max : ℝ) (h0 : 0 <
    sea_level_density) (h1 : 0 < landing_lift_coefficient_max) (h2 : 0 < design_wing_loading) (h3
    : 0 < wing_taper_ratio) (h4 : 0 < wing_thickness_to_chord_root) (h5 : 0 < wing_center_chord)
    (h6 : 0 < fuselage_avg_diameter - (wing_thickness_to_chord_root * wing_center_chord)) (h7 : 0
    < wing_span) (h8 : 0 < wing_flap_chord_ratio) (h9 : 0 < wing_area) (h10 : 0 <
    wing_flap_span_ratio - (((2 * (sqrt ((wing_thickness_to_chord_root * wing_center_chord) *
    (fuselage_avg_diameter - (wing_thickness_to_chord_root * wing_center_chord))))) + (2 / 5)) /
    wing_span)) (h11 : 0 < 2 - ((1 - wing_taper_ratio) * (wing_flap_span_ratio + (((2 * (sqrt
    ((wing_thickness_to_chord_root * wing_center_chord) * (fuselage_avg_diameter -
    (wing_thickness_to_chord_root * wing_center_chord))))) + (2 / 5)) / wing_span)))) (h12 : 0 <
    wing_num_flap_segments) (h13 : 0 < wing_flap_span_ratio - (((2 * (sqrt
    ((wing_thickness_to_chord_root * wing_center_chord) * (fuselage_avg_diameter -
    (wing_thickness_to_chord_root * wing_center_chord))))) + (2 / 5)) / wing_span)) (h14 : 0 < 2 -
    ((1 - wing_taper_ratio) * (wing_flap_span_ratio + (((2 * (sqrt ((wing_thickness_to_chord_root
    * wing_center_chord) * (fuselage_avg_diameter - (wing_thickness_to_chord_root *
    wing_center_chord))))) + (2 / 5)) / wing_span)))) :
    HasDerivAt (fun t => out_flap_mass wing_num_flap_segments sea_level_density t wing_area wing_flap_chord_ratio wing_taper_ratio wing_flap_span_ratio design_wing_loading wing_thickness_to_chord_root wing_span fuselage_avg_diameter wing_center_chord landing_lift_coefficient_max) (J_flap_mass__wing_high_lift_mass_coefficient wing_num_flap_segments sea_level_density wing_area wing_flap_chord_ratio wing_taper_ratio wing_flap_span_ratio design_wing_loading wing_thickness_to_chord_root wing_span fuselage_avg_diameter wing_center_chord landing_lift_coefficient_max) wing_high_lift_mass_coefficient := by
  have e0 : ∀ x : ℝ, 0 < x → x ^ ((119 / 100) : ℝ) = x ^ ((19 / 100) : ℝ) * x ^ 1 := fun x hx => rpow_up hx 1 (by norm_num)
  have e1 : ∀ x : ℝ, 0 < x → x ^ ((119 / 50) : ℝ) = x ^ ((19 / 50) : ℝ) * x ^ 2 := fun x hx => rpow_up hx 2 (by norm_num)
  simp only [out_flap_mass, J_flap_mass__wing_high_lift_mass_coefficient, sflap_2, body_to_span_ratio_2, u1, vflap_2, u2, sflap, body_to_span_ratio, vflap, vstall, sqrt_eq_rpow]
  (apply hasDerivAt_of_eq; on_goal 1 => (repeat' comp_step))
  all_goals try comp_side
  all_goals try simp (disch := first | assumption | positivity) only [e0, e1, div_mul_eq_div_div, div_half, inv_half]
  all_goals try simp only [mul_zero, zero_mul, add_zero, zero_add, sub_zero, zero_sub, mul_one, one_mul]
  all_goals try push_cast
  all_goals comp_eq

theorem d_flap_mass__wing_area (wing_num_flap_segments sea_level_density
    wing_high_lift_mass_coefficient wing_area wing_flap_chord_ratio wing_taper_ratio
    wing_flap_span_ratio design_wing_loading wing_thickness_to_chord_root wing_span
    fuselage_avg_diameter wing_center_chord landing_lift_coefficient_max : ℝ) (h0 : 0 <
    sea_level_density) (h1 : 0 < landing_lift_coefficient_max) (h2 : 0 < design_wing_loading) (h3
    : 0 < wing_taper_ratio) (h4 : 0 < wing_thickness_to_chord_root) (h5 : 0 < wing_center_chord)
    (h6 : 0 < fuselage_avg_diameter - (wing_thickness_to_chord_root * wing_center_chord)) (h7 : 0
    < wing_span) (h8 : 0 < wing_flap_chord_ratio) (h9 : 0 < wing_area) (h10 : 0 <
    wing_flap_span_ratio - (((2 * (sqrt ((wing_thickness_to_chord_root * wing_center_chord) *
    (fuselage_avg_diameter - (wing_thickness_to_chord_root * wing_center_chord))))) + (2 / 5)) /
    wing_span)) (h11 : 0 < 2 - ((1 - wing_taper_ratio) * (wing_flap_span_ratio + (((2 * (sqrt
    ((wing_thickness_to_chord_root * wing_center_chord) * (fuselage_avg_diameter -
    (wing_thickness_to_chord_root * wing_center_chord))))) + (2 / 5)) / wing_span)))) (h12 : 0 <
    wing_num_flap_segments) (h13 : 0 < wing_flap_span_ratio - (((2 * (sqrt
    ((wing_thickness_to_chord_root * wing_center_chord) * (fuselage_avg_diameter -
    (wing_thickness_to_chord_root * wing_center_chord))))) + (2 / 5)) / wing_span)) (h14 : 0 < 2 -
    ((1 - wing_taper_ratio) * (wing_flap_span_ratio + (((2 * (sqrt ((wing_thickness_to_chord_root
    * wing_center_chord) * (fuselage_avg_diameter - (wing_thickness_to_chord_root *
    wing_center_chord))))) + (2 / 5)) / wing_span)))) :
    HasDerivAt (fun t => out_flap_mass wing_num_flap_segments sea_level_density wing_high_lift_mass_coefficient t wing_flap_chord_ratio wing_taper_ratio wing_flap_span_ratio design_wing_loading wing_thickness_to_chord_root wing_span fuselage_avg_diameter wing_center_chord landing_lift_coefficient_max) (J_flap_mass__wing_area wing_num_flap_segments sea_level_density wing_high_lift_mass_coefficient wing_area wing_flap_chord_ratio wing_taper_ratio wing_flap_span_ratio design_wing_loading wing_thickness_to_chord_root wing_span fuselage_avg_diameter wing_center_chord landing_lift_coefficient_max) wing_area := by
  have hf10 : 0 < wing_flap_span_ratio - (body_to_span_ratio wing_thickness_to_chord_root wing_span fuselage_avg_diameter wing_center_chord) := by simp only [dsflap_dwa, sflap_2, body_to_span_ratio_2, u1, vflap_2, u2, sflap, body_to_span_ratio, vflap, vstall]; exact h10
  have hf11 : 0 < 2 - ((1 - wing_taper_ratio) * (wing_flap_span_ratio + (body_to_span_ratio wing_thickness_to_chord_root wing_span fuselage_avg_diameter wing_center_chord))) := by simp only [dsflap_dwa, sflap_2, body_to_span_ratio_2, u1, vflap_2, u2, sflap, body_to_span_ratio, vflap, vstall]; exact h11
  have hf13 : 0 < wing_flap_span_ratio - (body_to_span_ratio_2 wing_thickness_to_chord_root wing_span fuselage_avg_diameter wing_center_chord) := by simp only [dsflap_dwa, sflap_2, body_to_span_ratio_2, u1, vflap_2, u2, sflap, body_to_span_ratio, vflap, vstall]; exact h13
  have hf14 : 0 < 2 - ((1 - wing_taper_ratio) * (wing_flap_span_ratio + (body_to_span_ratio_2 wing_thickness_to_chord_root wing_span fuselage_avg_diameter wing_center_chord))) := by simp only [dsflap_dwa, sflap_2, body_to_span_ratio_2, u1, vflap_2, u2, sflap, body_to_span_ratio, vflap, vstall]; exact h14
  have hp0 : 0 < vflap sea_level_density design_wing_loading landing_lift_coefficient_max := by simp only [dsflap_dwa, sflap_2, body_to_span_ratio_2, u1, vflap_2, u2, sflap, body_to_span_ratio, vflap, vstall]; comp_side
  have hp1 : 0 < sflap wing_area wing_flap_chord_ratio wing_taper_ratio wing_flap_span_ratio wing_thickness_to_chord_root wing_span fuselage_avg_diameter wing_center_chord := by simp only [dsflap_dwa, sflap_2, body_to_span_ratio_2, u1, vflap_2, u2, sflap, body_to_span_ratio, vflap, vstall]; comp_side
  have hp2 : 0 < vflap_2 sea_level_density design_wing_loading landing_lift_coefficient_max := by simp only [dsflap_dwa, sflap_2, body_to_span_ratio_2, u1, vflap_2, u2, sflap, body_to_span_ratio, vflap, vstall]; comp_side
  have hp3 : 0 < sflap_2 wing_area wing_flap_chord_ratio wing_taper_ratio wing_flap_span_ratio wing_thickness_to_chord_root wing_span fuselage_avg_diameter wing_center_chord := by simp only [dsflap_dwa, sflap_2, body_to_span_ratio_2, u1, vflap_2, u2, sflap, body_to_span_ratio, vflap, vstall]; comp_side
  have hp4 : 0 < u2 sea_level_density design_wing_loading landing_lift_coefficient_max := by simp only [dsflap_dwa, sflap_2, body_to_span_ratio_2, u1, vflap_2, u2, sflap, body_to_span_ratio, vflap, vstall]; comp_side
  have hp5 : 0 < u1 wing_thickness_to_chord_root fuselage_avg_diameter wing_center_chord := by simp only [dsflap_dwa, sflap_2, body_to_span_ratio_2, u1, vflap_2, u2, sflap, body_to_span_ratio, vflap, vstall]; comp_side
  have e0 : ∀ x : ℝ, 0 < x → x ^ ((119 / 100) : ℝ) = x ^ ((19 / 100) : ℝ) * x ^ 1 := fun x hx => rpow_up hx 1 (by norm_num)
  have e1 : ∀ x : ℝ, 0 < x → x ^ ((119 / 50) : ℝ) = x ^ ((19 / 50) : ℝ) * x ^ 2 := fun x hx => rpow_up hx 2 (by norm_num)
  obtain ⟨D_sflap, hD_sflap, k_sflap⟩ : ∃ D : ℝ, D = ((wing_flap_chord_ratio / (1 + wing_taper_ratio)) * (wing_flap_span_ratio - (body_to_span_ratio wing_thickness_to_chord_root wing_span fuselage_avg_diameter wing_center_chord))) * (2 - ((1 - wing_taper_ratio) * (wing_flap_span_ratio + (body_to_span_ratio wing_thickness_to_chord_root wing_span fuselage_avg_diameter wing_center_chord)))) ∧
      HasDerivAt (fun t => sflap t wing_flap_chord_ratio wing_taper_ratio wing_flap_span_ratio wing_thickness_to_chord_root wing_span fuselage_avg_diameter wing_center_chord) D wing_area := by
    refine ⟨_, rfl, ?_⟩
    simp only [sflap]
    apply hasDerivAt_of_eq; on_goal 1 => (repeat' comp_step)
    all_goals try first | comp_side | (apply HasDerivAt.continuousAt; (repeat' comp_step); all_goals comp_side)
    all_goals try simp (disch := first | assumption | positivity) only [e0, e1, div_mul_eq_div_div, div_half, inv_half]
    all_goals try simp only [mul_zero, zero_mul, add_zero, zero_add, sub_zero, zero_sub, mul_one, one_mul, sub_self]
    all_goals try push_cast
    all_goals comp_eq
  have al_sflap_2 : sflap_2 wing_area wing_flap_chord_ratio wing_taper_ratio wing_flap_span_ratio wing_thickness_to_chord_root wing_span fuselage_avg_diameter wing_center_chord = sflap wing_area wing_flap_chord_ratio wing_taper_ratio wing_flap_span_ratio wing_thickness_to_chord_root wing_span fuselage_avg_diameter wing_center_chord := rfl
  have al_body_to_span_ratio_2 : body_to_span_ratio_2 wing_thickness_to_chord_root wing_span fuselage_avg_diameter wing_center_chord = body_to_span_ratio wing_thickness_to_chord_root wing_span fuselage_avg_diameter wing_center_chord := rfl
  have al_vflap_2 : vflap_2 sea_level_density design_wing_loading landing_lift_coefficient_max = vflap sea_level_density design_wing_loading landing_lift_coefficient_max := rfl
  try simp only [out_flap_mass, J_flap_mass__wing_area, dsflap_dwa, u1, u2, al_sflap_2, al_body_to_span_ratio_2, al_vflap_2]
  all_goals (apply hasDerivAt_of_eq; on_goal 1 => (repeat' comp_step))
  all_goals try first | comp_side | (apply HasDerivAt.continuousAt; (repeat' comp_step); all_goals comp_side)
  all_goals try simp only [hD_sflap]
  all_goals try simp (disch := first | assumption | positivity) only [e0, e1, div_mul_eq_div_div, div_half, inv_half]
  all_goals try simp only [mul_zero, zero_mul, add_zero, zero_add, sub_zero, zero_sub, mul_one, one_mul, sub_self]
  all_goals try push_cast
  all_goals comp_eq

theorem d_flap_mass__wing_flap_chord_ratio (wing_num_flap_segments sea_level_density
    wing_high_lift_mass_coefficient wing_area wing_flap_chord_ratio wing_taper_ratio
    wing_flap_span_ratio design_wing_loading wing_thickness_to_chord_root wing_span
    fuselage_avg_diameter wing_center_chord landing_lift_coefficient_max : ℝ) (h0 : 0 <
    sea_level_density) (h1 : 0 < landing_lift_coefficient_max) (h2 : 0 < design_wing_loading) (h3
    : 0 < wing_taper_ratio) (h4 : 0 < wing_thickness_to_chord_root) (h5 : 0 < wing_center_chord)
    (h6 : 0 < fuselage_avg_diameter - (wing_thickness_to_chord_root * wing_center_chord)) (h7 : 0
    < wing_span) (h8 : 0 < wing_flap_chord_ratio) (h9 : 0 < wing_area) (h10 : 0 <
    wing_flap_span_ratio - (((2 * (sqrt ((wing_thickness_to_chord_root * wing_center_chord) *
    (fuselage_avg_diameter - (wing_thickness_to_chord_root * wing_center_chord))))) + (2 / 5)) /
    wing_span)) (h11 : 0 < 2 - ((1 - wing_taper_ratio) * (wing_flap_span_ratio + (((2 * (sqrt
    ((wing_thickness_to_chord_root * wing_center_chord) * (fuselage_avg_diameter -
    (wing_thickness_to_chord_root * wing_center_chord))))) + (2 / 5)) / wing_span)))) (h12 : 0 <
    wing_num_flap_segments) (h13 : 0 < wing_flap_span_ratio - (((2 * (sqrt
    ((wing_thickness_to_chord_root * wing_center_chord) * (fuselage_avg_diameter -
    (wing_thickness_to_chord_root * wing_center_chord))))) + (2 / 5)) / wing_span)) (h14 : 0 < 2 -
    ((1 - wing_taper_ratio) * (wing_flap_span_ratio + (((2 * (sqrt ((wing_thickness_to_chord_root
    * wing_center_chord) * (fuselage_avg_diameter - (wing_thickness_to_chord_root *
    wing_center_chord))))) + (2 / 5)) / wing_span)))) :
    HasDerivAt (fun t => out_flap_mass wing_num_flap_segments sea_level_density wing_high_lift_mass_coefficient wing_area t wing_taper_ratio wing_flap_span_ratio design_wing_loading wing_thickness_to_chord_root wing_span fuselage_avg_diameter wing_center_chord landing_lift_coefficient_max) (J_flap_mass__wing_flap_chord_ratio wing_num_flap_segments sea_level_density wing_high_lift_mass_coefficient wing_area wing_flap_chord_ratio wing_taper_ratio wing_flap_span_ratio design_wing_loading wing_thickness_to_chord_root wing_span fuselage_avg_diameter wing_center_chord landing_lift_coefficient_max) wing_flap_chord_ratio := by
  have hf10 : 0 < wing_flap_span_ratio - (body_to_span_ratio wing_thickness_to_chord_root wing_span fuselage_avg_diameter wing_center_chord) := by simp only [dsflap_dfcr, sflap_2, body_to_span_ratio_2, u1, vflap_2, u2, sflap, body_to_span_ratio, vflap, vstall]; exact h10
  have hf11 : 0 < 2 - ((1 - wing_taper_ratio) * (wing_flap_span_ratio + (body_to_span_ratio wing_thickness_to_chord_root wing_span fuselage_avg_diameter wing_center_chord))) := by simp only [dsflap_dfcr, sflap_2, body_to_span_ratio_2, u1, vflap_2, u2, sflap, body_to_span_ratio, vflap, vstall]; exact h11
  have hf13 : 0 < wing_flap_span_ratio - (body_to_span_ratio_2 wing_thickness_to_chord_root wing_span fuselage_avg_diameter wing_center_chord) := by simp only [dsflap_dfcr, sflap_2, body_to_span_ratio_2, u1, vflap_2, u2, sflap, body_to_span_ratio, vflap, vstall]; exact h13
  have hf14 : 0 < 2 - ((1 - wing_taper_ratio) * (wing_flap_span_ratio + (body_to_span_ratio_2 wing_thickness_to_chord_root wing_span fuselage_avg_diameter wing_center_chord))) := by simp only [dsflap_dfcr, sflap_2, body_to_span_ratio_2, u1, vflap_2, u2, sflap, body_to_span_ratio, vflap, vstall]; exact h14
  have hp0 : 0 < vflap sea_level_density design_wing_loading landing_lift_coefficient_max := by simp only [dsflap_dfcr, sflap_2, body_to_span_ratio_2, u1, vflap_2, u2, sflap, body_to_span_ratio, vflap, vstall]; comp_side
  have hp1 : 0 < sflap wing_area wing_flap_chord_ratio wing_taper_ratio wing_flap_span_ratio wing_thickness_to_chord_root wing_span fuselage_avg_diameter wing_center_chord := by simp only [dsflap_dfcr, sflap_2, body_to_span_ratio_2, u1, vflap_2, u2, sflap, body_to_span_ratio, vflap, vstall]; comp_side
  have hp2 : 0 < vflap_2 sea_level_density design_wing_loading landing_lift_coefficient_max := by simp only [dsflap_dfcr, sflap_2, body_to_span_ratio_2, u1, vflap_2, u2, sflap, body_to_span_ratio, vflap, vstall]; comp_side
  have hp3 : 0 < sflap_2 wing_area wing_flap_chord_ratio wing_taper_ratio wing_flap_span_ratio wing_thickness_to_chord_root wing_span fuselage_avg_diameter wing_center_chord := by simp only [dsflap_dfcr, sflap_2, body_to_span_ratio_2, u1, vflap_2, u2, sflap, body_to_span_ratio, vflap, vstall]; comp_side
  have hp4 : 0 < u2 sea_level_density design_wing_loading landing_lift_coefficient_max := by simp only [dsflap_dfcr, sflap_2, body_to_span_ratio_2, u1, vflap_2, u2, sflap, body_to_span_ratio, vflap, vstall]; comp_side
  have hp5 : 0 < u1 wing_thickness_to_chord_root fuselage_avg_diameter wing_center_chord := by simp only [dsflap_dfcr, sflap_2, body_to_span_ratio_2, u1, vflap_2, u2, sflap, body_to_span_ratio, vflap, vstall]; comp_side
  have e0 : ∀ x : ℝ, 0 < x → x ^ ((119 / 100) : ℝ) = x ^ ((19 / 100) : ℝ) * x ^ 1 := fun x hx => rpow_up hx 1 (by norm_num)
  have e1 : ∀ x : ℝ, 0 < x → x ^ ((119 / 50) : ℝ) = x ^ ((19 / 50) : ℝ) * x ^ 2 := fun x hx => rpow_up hx 2 (by norm_num)
  obtain ⟨D_sflap, hD_sflap, k_sflap⟩ : ∃ D : ℝ, D = ((wing_area / (1 + wing_taper_ratio)) * (wing_flap_span_ratio - (body_to_span_ratio wing_thickness_to_chord_root wing_span fuselage_avg_diameter wing_center_chord))) * (2 - ((1 - wing_taper_ratio) * (wing_flap_span_ratio + (body_to_span_ratio wing_thickness_to_chord_root wing_span fuselage_avg_diameter wing_center_chord)))) ∧
      HasDerivAt (fun t => sflap wing_area t wing_taper_ratio wing_flap_span_ratio wing_thickness_to_chord_root wing_span fuselage_avg_diameter wing_center_chord) D wing_flap_chord_ratio := by
    refine ⟨_, rfl, ?_⟩
    simp only [sflap]
    apply hasDerivAt_of_eq; on_goal 1 => (repeat' comp_step)
    all_goals try first | comp_side | (apply HasDerivAt.continuousAt; (repeat' comp_step); all_goals comp_side)
    all_goals try simp (disch := first | assumption | positivity) only [e0, e1, div_mul_eq_div_div, div_half, inv_half]
    all_goals try simp only [mul_zero, zero_mul, add_zero, zero_add, sub_zero, zero_sub, mul_one, one_mul, sub_self]
    all_goals try push_cast
    all_goals comp_eq
  have al_sflap_2 : sflap_2 wing_area wing_flap_chord_ratio wing_taper_ratio wing_flap_span_ratio wing_thickness_to_chord_root wing_span fuselage_avg_diameter wing_center_chord = sflap wing_area wing_flap_chord_ratio wing_taper_ratio wing_flap_span_ratio wing_thickness_to_chord_root wing_span fuselage_avg_diameter wing_center_chord := rfl
  have al_body_to_span_ratio_2 : body_to_span_ratio_2 wing_thickness_to_chord_root wing_span fuselage_avg_diameter wing_center_chord = body_to_span_ratio wing_thickness_to_chord_root wing_span fuselage_avg_diameter wing_center_chord := rfl
  have al_vflap_2 : vflap_2 sea_level_density design_wing_loading landing_lift_coefficient_max = vflap sea_level_density design_wing_loading landing_lift_coefficient_max := rfl
  try simp only [out_flap_mass, J_flap_mass__wing_flap_chord_ratio, dsflap_dfcr, u1, u2, al_sflap_2, al_body_to_span_ratio_2, al_vflap_2]
  all_goals (apply hasDerivAt_of_eq; on_goal 1 => (repeat' comp_step))
  all_goals try first | comp_side | (apply HasDerivAt.continuousAt; (repeat' comp_step); all_goals comp_side)
  all_goals try simp only [hD_sflap]
  all_goals try simp (disch := first | assumption | positivity) only [e0, e1, div_mul_eq_div_div, div_half, inv_half]
  all_goals try simp only [mul_zero, zero_mul, add_zero, zero_add, sub_zero, zero_sub, mul_one, one_mul, sub_self]
  all_goals try push_cast
  all_goals comp_eq

theorem d_flap_mass__wing_taper_ratio (wing_num_flap_segments sea_level_density
    wing_high_lift_mass_coefficient wing_area wing_flap_chord_ratio wing_taper_ratio
    wing_flap_span_ratio design_wing_loading wing_thickness_to_chord_root wing_span
    fuselage_avg_diameter wing_center_chord landing_lift_coefficient_max : ℝ) (h0 : 0 <
    sea_level_density) (h1 : 0 < landing_lift_coefficient_max) (h2 : 0 < design_wing_loading) (h3
    : 0 < wing_taper_ratio) (h4 : 0 < wing_thickness_to_chord_root) (h5 : 0 < wing_center_chord)
    (h6 : 0 < fuselage_avg_diameter - (wing_thickness_to_chord_root * wing_center_chord)) (h7 : 0
    < wing_span) (h8 : 0 < wing_flap_chord_ratio) (h9 : 0 < wing_area) (h10 : 0 <
    wing_flap_span_ratio - (((2 * (sqrt ((wing_thickness_to_chord_root * wing_center_chord) *
    (fuselage_avg_diameter - (wing_thickness_to_chord_root * wing_center_chord))))) + (2 / 5)) /
    wing_span)) (h11 : 0 < 2 - ((1 - wing_taper_ratio) * (wing_flap_span_ratio + (((2 * (sqrt
    ((wing_thickness_to_chord_root * wing_center_chord) * (fuselage_avg_diameter -
    (wing_thickness_to_chord_root * wing_center_chord))))) + (2 / 5)) / wing_span)))) (h12 : 0 <
    wing_num_flap_segments) (h13 : 0 < wing_flap_span_ratio - (((2 * (sqrt
    ((wing_thickness_to_chord_root * wing_center_chord) * (fuselage_avg_diameter -
    (wing_thickness_to_chord_root * wing_center_chord))))) + (2 / 5)) / wing_span)) (h14 : 0 < 2 -
    ((1 - wing_taper_ratio) * (wing_flap_span_ratio + (((2 * (sqrt ((wing_thickness_to_chord_root
    * wing_center_chord) * (fuselage_avg_diameter - (wing_thickness_to_chord_root *
    wing_center_chord))))) + (2 / 5)) / wing_span)))) :
    HasDerivAt (fun t => out_flap_mass wing_num_flap_segments sea_level_density wing_high_lift_mass_coefficient wing_area wing_flap_chord_ratio t wing_flap_span_ratio design_wing_loading wing_thickness_to_chord_root wing_span fuselage_avg_diameter wing_center_chord landing_lift_coefficient_max) (J_flap_mass__wing_taper_ratio wing_num_flap_segments sea_level_density wing_high_lift_mass_coefficient wing_area wing_flap_chord_ratio wing_taper_ratio wing_flap_span_ratio design_wing_loading wing_thickness_to_chord_root wing_span fuselage_avg_diameter wing_center_chord landing_lift_coefficient_max) wing_taper_ratio := by
  have hf10 : 0 < wing_flap_span_ratio - (body_to_span_ratio wing_thickness_to_chord_root wing_span fuselage_avg_diameter wing_center_chord) := by simp only [dsflap_dtr, sflap_2, body_to_span_ratio_2, u1, vflap_2, u2, sflap, body_to_span_ratio, vflap, vstall]; exact h10
  have hf11 : 0 < 2 - ((1 - wing_taper_ratio) * (wing_flap_span_ratio + (body_to_span_ratio wing_thickness_to_chord_root wing_span fuselage_avg_diameter wing_center_chord))) := by simp only [dsflap_dtr, sflap_2, body_to_span_ratio_2, u1, vflap_2, u2, sflap, body_to_span_ratio, vflap, vstall]; exact h11
  have hf13 : 0 < wing_flap_span_ratio - (body_to_span_ratio_2 wing_thickness_to_chord_root wing_span fuselage_avg_diameter wing_center_chord) := by simp only [dsflap_dtr, sflap_2, body_to_span_ratio_2, u1, vflap_2, u2, sflap, body_to_span_ratio, vflap, vstall]; exact h13
  have hf14 : 0 < 2 - ((1 - wing_taper_ratio) * (wing_flap_span_ratio + (body_to_span_ratio_2 wing_thickness_to_chord_root wing_span fuselage_avg_diameter wing_center_chord))) := by simp only [dsflap_dtr, sflap_2, body_to_span_ratio_2, u1, vflap_2, u2, sflap, body_to_span_ratio, vflap, vstall]; exact h14
  have hp0 : 0 < vflap sea_level_density design_wing_loading landing_lift_coefficient_max := by simp only [dsflap_dtr, sflap_2, body_to_span_ratio_2, u1, vflap_2, u2, sflap, body_to_span_ratio, vflap, vstall]; comp_side
  have hp1 : 0 < sflap wing_area wing_flap_chord_ratio wing_taper_ratio wing_flap_span_ratio wing_thickness_to_chord_root wing_span fuselage_avg_diameter wing_center_chord := by simp only [dsflap_dtr, sflap_2, body_to_span_ratio_2, u1, vflap_2, u2, sflap, body_to_span_ratio, vflap, vstall]; comp_side
  have hp2 : 0 < vflap_2 sea_level_density design_wing_loading landing_lift_coefficient_max := by simp only [dsflap_dtr, sflap_2, body_to_span_ratio_2, u1, vflap_2, u2, sflap, body_to_span_ratio, vflap, vstall]; comp_side
  have hp3 : 0 < sflap_2 wing_area wing_flap_chord_ratio wing_taper_ratio wing_flap_span_ratio wing_thickness_to_chord_root wing_span fuselage_avg_diameter wing_center_chord := by simp only [dsflap_dtr, sflap_2, body_to_span_ratio_2, u1, vflap_2, u2, sflap, body_to_span_ratio, vflap, vstall]; comp_side
  have hp4 : 0 < u2 sea_level_density design_wing_loading landing_lift_coefficient_max := by simp only [dsflap_dtr, sflap_2, body_to_span_ratio_2, u1, vflap_2, u2, sflap, body_to_span_ratio, vflap, vstall]; comp_side
  have hp5 : 0 < u1 wing_thickness_to_chord_root fuselage_avg_diameter wing_center_chord := by simp only [dsflap_dtr, sflap_2, body_to_span_ratio_2, u1, vflap_2, u2, sflap, body_to_span_ratio, vflap, vstall]; comp_side
  have e0 : ∀ x : ℝ, 0 < x → x ^ ((119 / 100) : ℝ) = x ^ ((19 / 100) : ℝ) * x ^ 1 := fun x hx => rpow_up hx 1 (by norm_num)
  have e1 : ∀ x : ℝ, 0 < x → x ^ ((119 / 50) : ℝ) = x ^ ((19 / 50) : ℝ) * x ^ 2 := fun x hx => rpow_up hx 2 (by norm_num)
  obtain ⟨D_sflap, hD_sflap, k_sflap⟩ : ∃ D : ℝ, D = (((-((wing_flap_chord_ratio * wing_area) / ((1 + wing_taper_ratio) ^ 2))) * (wing_flap_span_ratio - (body_to_span_ratio wing_thickness_to_chord_root wing_span fuselage_avg_diameter wing_center_chord))) * (2 - ((1 - wing_taper_ratio) * (wing_flap_span_ratio + (body_to_span_ratio wing_thickness_to_chord_root wing_span fuselage_avg_diameter wing_center_chord))))) + ((((wing_flap_chord_ratio * wing_area) / (1 + wing_taper_ratio)) * (wing_flap_span_ratio - (body_to_span_ratio wing_thickness_to_chord_root wing_span fuselage_avg_diameter wing_center_chord))) * (-((-1) * (wing_flap_span_ratio + (body_to_span_ratio wing_thickness_to_chord_root wing_span fuselage_avg_diameter wing_center_chord))))) ∧
      HasDerivAt (fun t => sflap wing_area wing_flap_chord_ratio t wing_flap_span_ratio wing_thickness_to_chord_root wing_span fuselage_avg_diameter wing_center_chord) D wing_taper_ratio := by
    refine ⟨_, rfl, ?_⟩
    simp only [sflap]
    apply hasDerivAt_of_eq; on_goal 1 => (repeat' comp_step)
    all_goals try first | comp_side | (apply HasDerivAt.continuousAt; (repeat' comp_step); all_goals comp_side)
    all_goals try simp (disch := first | assumption | positivity) only [e0, e1, div_mul_eq_div_div, div_half, inv_half]
    all_goals try simp only [mul_zero, zero_mul, add_zero, zero_add, sub_zero, zero_sub, mul_one, one_mul, sub_self]
    all_goals try push_cast
    all_goals comp_eq
  have al_sflap_2 : sflap_2 wing_area wing_flap_chord_ratio wing_taper_ratio wing_flap_span_ratio wing_thickness_to_chord_root wing_span fuselage_avg_diameter wing_center_chord = sflap wing_area wing_flap_chord_ratio wing_taper_ratio wing_flap_span_ratio wing_thickness_to_chord_root wing_span fuselage_avg_diameter wing_center_chord := rfl
  have al_body_to_span_ratio_2 : body_to_span_ratio_2 wing_thickness_to_chord_root wing_span fuselage_avg_diameter wing_center_chord = body_to_span_ratio wing_thickness_to_chord_root wing_span fuselage_avg_diameter wing_center_chord := rfl
  have al_vflap_2 : vflap_2 sea_level_density design_wing_loading landing_lift_coefficient_max = vflap sea_level_density design_wing_loading landing_lift_coefficient_max := rfl
  try simp only [out_flap_mass, J_flap_mass__wing_taper_ratio, dsflap_dtr, u1, u2, al_sflap_2, al_body_to_span_ratio_2, al_vflap_2]
  all_goals (apply hasDerivAt_of_eq; on_goal 1 => (repeat' comp_step))
  all_goals try first | comp_side | (apply HasDerivAt.continuousAt; (repeat' comp_step); all_goals comp_side)
  all_goals try simp only [hD_sflap]
  all_goals try simp (disch := first | assumption | positivity) only [e0, e1, div_mul_eq_div_div, div_half, inv_half]
  all_goals try simp only [mul_zero, zero_mul, add_zero, zero_add, sub_zero, zero_sub, mul_one, one_mul, sub_self]
  all_goals try push_cast
  all_goals comp_eq

theorem d_flap_mass__wing_flap_span_ratio (wing_num_flap_segments sea_level_density
    wing_high_lift_mass_coefficient wing_area wing_flap_chord_ratio wing_taper_ratio
    wing_flap_span_ratio design_wing_loading wing_thickness_to_chord_root wing_span
    fuselage_avg_diameter wing_center_chord landing_lift_coefficient_max : ℝ) (h0 : 0 <
    sea_level_density) (h1 : 0 < landing_lift_coefficient_max) (h2 : 0 < design_wing_loading) (h3
    : 0 < wing_taper_ratio) (h4 : 0 < wing_thickness_to_chord_root) (h5 : 0 < wing_center_chord)
    (h6 : 0 < fuselage_avg_diameter - (wing_thickness_to_chord_root * wing_center_chord)) (h7 : 0
    < wing_span) (h8 : 0 < wing_flap_chord_ratio) (h9 : 0 < wing_area) (h10 : 0 <
    wing_flap_span_ratio - (((2 * (sqrt ((wing_thickness_to_chord_root * wing_center_chord) *
    (fuselage_avg_diameter - (wing_thickness_to_chord_root * wing_center_chord))))) + (2 / 5)) /
    wing_span)) (h11 : 0 < 2 - ((1 - wing_taper_ratio) * (wing_flap_span_ratio + (((2 * (sqrt
    ((wing_thickness_to_chord_root * wing_center_chord) * (fuselage_avg_diameter -
    (wing_thickness_to_chord_root * wing_center_chord))))) + (2 / 5)) / wing_span)))) (h12 : 0 <
    wing_num_flap_segments) (h13 : 0 < wing_flap_span_ratio - (((2 * (sqrt
    ((wing_thickness_to_chord_root * wing_center_chord) * (fuselage_avg_diameter -
    (wing_thickness_to_chord_root * wing_center_chord))))) + (2 / 5)) / wing_span)) (h14 : 0 < 2 -
    ((1 - wing_taper_ratio) * (wing_flap_span_ratio + (((2 * (sqrt ((wing_thickness_to_chord_root
    * wing_center_chord) * (fuselage_avg_diameter - (wing_thickness_to_chord_root *
    wing_center_chord))))) + (2 / 5)) / wing_span)))) :
    HasDerivAt (fun t => out_flap_mass wing_num_flap_segments sea_level_density wing_high_lift_mass_coefficient wing_area wing_flap_chord_ratio wing_taper_ratio t design_wing_loading wing_thickness_to_chord_root wing_span fuselage_avg_diameter wing_center_chord landing_lift_coefficient_max) (J_flap_mass__wing_flap_span_ratio wing_num_flap_segments sea_level_density wing_high_lift_mass_coefficient wing_area wing_flap_chord_ratio wing_taper_ratio wing_flap_span_ratio design_wing_loading wing_thickness_to_chord_root wing_span fuselage_avg_diameter wing_center_chord landing_lift_coefficient_max) wing_flap_span_ratio := by
  have hf10 : 0 < wing_flap_span_ratio - (body_to_span_ratio wing_thickness_to_chord_root wing_span fuselage_avg_diameter wing_center_chord) := by simp only [dsflap_dfsr, sflap_2, body_to_span_ratio_2, u1, vflap_2, u2, sflap, body_to_span_ratio, vflap, vstall]; exact h10
  have hf11 : 0 < 2 - ((1 - wing_taper_ratio) * (wing_flap_span_ratio + (body_to_span_ratio wing_thickness_to_chord_root wing_span fuselage_avg_diameter wing_center_chord))) := by simp only [dsflap_dfsr, sflap_2, body_to_span_ratio_2, u1, vflap_2, u2, sflap, body_to_span_ratio, vflap, vstall]; exact h11
  have hf13 : 0 < wing_flap_span_ratio - (body_to_span_ratio_2 wing_thickness_to_chord_root wing_span fuselage_avg_diameter wing_center_chord) := by simp only [dsflap_dfsr, sflap_2, body_to_span_ratio_2, u1, vflap_2, u2, sflap, body_to_span_ratio, vflap, vstall]; exact h13
  have hf14 : 0 < 2 - ((1 - wing_taper_ratio) * (wing_flap_span_ratio + (body_to_span_ratio_2 wing_thickness_to_chord_root wing_span fuselage_avg_diameter wing_center_chord))) := by simp only [dsflap_dfsr, sflap_2, body_to_span_ratio_2, u1, vflap_2, u2, sflap, body_to_span_ratio, vflap, vstall]; exact h14
  have hp0 : 0 < vflap sea_level_density design_wing_loading landing_lift_coefficient_max := by simp only [dsflap_dfsr, sflap_2, body_to_span_ratio_2, u1, vflap_2, u2, sflap, body_to_span_ratio, vflap, vstall]; comp_side
  have hp1 : 0 < sflap wing_area wing_flap_chord_ratio wing_taper_ratio wing_flap_span_ratio wing_thickness_to_chord_root wing_span fuselage_avg_diameter wing_center_chord := by simp only [dsflap_dfsr, sflap_2, body_to_span_ratio_2, u1, vflap_2, u2, sflap, body_to_span_ratio, vflap, vstall]; comp_side
  have hp2 : 0 < vflap_2 sea_level_density design_wing_loading landing_lift_coefficient_max := by simp only [dsflap_dfsr, sflap_2, body_to_span_ratio_2, u1, vflap_2, u2, sflap, body_to_span_ratio, vflap, vstall]; comp_side
  have hp3 : 0 < sflap_2 wing_area wing_flap_chord_ratio wing_taper_ratio wing_flap_span_ratio wing_thickness_to_chord_root wing_span fuselage_avg_diameter wing_center_chord := by simp only [dsflap_dfsr, sflap_2, body_to_span_ratio_2, u1, vflap_2, u2, sflap, body_to_span_ratio, vflap, vstall]; comp_side
  have hp4 : 0 < u2 sea_level_density design_wing_loading landing_lift_coefficient_max := by simp only [dsflap_dfsr, sflap_2, body_to_span_ratio_2, u1, vflap_2, u2, sflap, body_to_span_ratio, vflap, vstall]; comp_side
  have hp5 : 0 < u1 wing_thickness_to_chord_root fuselage_avg_diameter wing_center_chord := by simp only [dsflap_dfsr, sflap_2, body_to_span_ratio_2, u1, vflap_2, u2, sflap, body_to_span_ratio, vflap, vstall]; comp_side
  have e0 : ∀ x : ℝ, 0 < x → x ^ ((119 / 100) : ℝ) = x ^ ((19 / 100) : ℝ) * x ^ 1 := fun x hx => rpow_up hx 1 (by norm_num)
  have e1 : ∀ x : ℝ, 0 < x → x ^ ((119 / 50) : ℝ) = x ^ ((19 / 50) : ℝ) * x ^ 2 := fun x hx => rpow_up hx 2 (by norm_num)
  obtain ⟨D_sflap, hD_sflap, k_sflap⟩ : ∃ D : ℝ, D = (((wing_flap_chord_ratio * wing_area) / (1 + wing_taper_ratio)) * (2 - ((1 - wing_taper_ratio) * (wing_flap_span_ratio + (body_to_span_ratio wing_thickness_to_chord_root wing_span fuselage_avg_diameter wing_center_chord))))) + ((((wing_flap_chord_ratio * wing_area) / (1 + wing_taper_ratio)) * (wing_flap_span_ratio - (body_to_span_ratio wing_thickness_to_chord_root wing_span fuselage_avg_diameter wing_center_chord))) * (-(1 - wing_taper_ratio))) ∧
      HasDerivAt (fun t => sflap wing_area wing_flap_chord_ratio wing_taper_ratio t wing_thickness_to_chord_root wing_span fuselage_avg_diameter wing_center_chord) D wing_flap_span_ratio := by
    refine ⟨_, rfl, ?_⟩
    simp only [sflap]
    apply hasDerivAt_of_eq; on_goal 1 => (repeat' comp_step)
    all_goals try first | comp_side | (apply HasDerivAt.continuousAt; (repeat' comp_step); all_goals comp_side)
    all_goals try simp (disch := first | assumption | positivity) only [e0, e1, div_mul_eq_div_div, div_half, inv_half]
    all_goals try simp only [mul_zero, zero_mul, add_zero, zero_add, sub_zero, zero_sub, mul_one, one_mul, sub_self]
    all_goals try push_cast
    all_goals comp_eq
  have al_sflap_2 : sflap_2 wing_area wing_flap_chord_ratio wing_taper_ratio wing_flap_span_ratio wing_thickness_to_chord_root wing_span fuselage_avg_diameter wing_center_chord = sflap wing_area wing_flap_chord_ratio wing_taper_ratio wing_flap_span_ratio wing_thickness_to_chord_root wing_span fuselage_avg_diameter wing_center_chord := rfl
  have al_body_to_span_ratio_2 : body_to_span_ratio_2 wing_thickness_to_chord_root wing_span fuselage_avg_diameter wing_center_chord = body_to_span_ratio wing_thickness_to_chord_root wing_span fuselage_avg_diameter wing_center_chord := rfl
  have al_vflap_2 : vflap_2 sea_level_density design_wing_loading landing_lift_coefficient_max = vflap sea_level_density design_wing_loading landing_lift_coefficient_max := rfl
  try simp only [out_flap_mass, J_flap_mass__wing_flap_span_ratio, dsflap_dfsr, u1, u2, al_sflap_2, al_body_to_span_ratio_2, al_vflap_2]
  all_goals (apply hasDerivAt_of_eq; on_goal 1 => (repeat' comp_step))
  all_goals try first | comp_side | (apply HasDerivAt.continuousAt; (repeat' comp_step); all_goals comp_side)
  all_goals try simp only [hD_sflap]
  all_goals try simp (disch := first | assumption | positivity) only [e0, e1, div_mul_eq_div_div, div_half, inv_half]
  all_goals try simp only [mul_zero, zero_mul, add_zero, zero_add, sub_zero, zero_sub, mul_one, one_mul, sub_self]
  all_goals try push_cast
  all_goals comp_eq

theorem d_flap_mass__design_wing_loading (wing_num_flap_segments sea_level_density
    wing_high_lift_mass_coefficient wing_area wing_flap_chord_ratio wing_taper_ratio
    wing_flap_span_ratio design_wing_loading wing_thickness_to_chord_root wing_span
    fuselage_avg_diameter wing_center_chord landing_lift_coefficient_max : ℝ) (h0 : 0 <
    sea_level_density) (h1 : 0 < landing_lift_coefficient_max) (h2 : 0 < design_wing_loading) (h3
    : 0 < wing_taper_ratio) (h4 : 0 < wing_thickness_to_chord_root) (h5 : 0 < wing_center_chord)
    (h6 : 0 < fuselage_avg_diameter - (wing_thickness_to_chord_root * wing_center_chord)) (h7 : 0
    < wing_span) (h8 : 0 < wing_flap_chord_ratio) (h9 : 0 < wing_area) (h10 : 0 <
    wing_flap_span_ratio - (((2 * (sqrt ((wing_thickness_to_chord_root * wing_center_chord) *
    (fuselage_avg_diameter - (wing_thickness_to_chord_root * wing_center_chord))))) + (2 / 5)) /
    wing_span)) (h11 : 0 < 2 - ((1 - wing_taper_ratio) * (wing_flap_span_ratio + (((2 * (sqrt
    ((wing_thickness_to_chord_root * wing_center_chord) * (fuselage_avg_diameter -
    (wing_thickness_to_chord_root * wing_center_chord))))) + (2 / 5)) / wing_span)))) (h12 : 0 <
    wing_num_flap_segments) (h13 : 0 < wing_flap_span_ratio - (((2 * (sqrt
    ((wing_thickness_to_chord_root * wing_center_chord) * (fuselage_avg_diameter -
    (wing_thickness_to_chord_root * wing_center_chord))))) + (2 / 5)) / wing_span)) (h14 : 0 < 2 -
    ((1 - wing_taper_ratio) * (wing_flap_span_ratio + (((2 * (sqrt ((wing_thickness_to_chord_root
    * wing_center_chord) * (fuselage_avg_diameter - (wing_thickness_to_chord_root *
    wing_center_chord))))) + (2 / 5)) / wing_span)))) :
    HasDerivAt (fun t => out_flap_mass wing_num_flap_segments sea_level_density wing_high_lift_mass_coefficient wing_area wing_flap_chord_ratio wing_taper_ratio wing_flap_span_ratio t wing_thickness_to_chord_root wing_span fuselage_avg_diameter wing_center_chord landing_lift_coefficient_max) (J_flap_mass__design_wing_loading wing_num_flap_segments sea_level_density wing_high_lift_mass_coefficient wing_area wing_flap_chord_ratio wing_taper_ratio wing_flap_span_ratio design_wing_loading wing_thickness_to_chord_root wing_span fuselage_avg_diameter wing_center_chord landing_lift_coefficient_max) design_wing_loading := by
  have e0 : ∀ x : ℝ, 0 < x → x ^ ((119 / 100) : ℝ) = x ^ ((19 / 100) : ℝ) * x ^ 1 := fun x hx => rpow_up hx 1 (by norm_num)
  have e1 : ∀ x : ℝ, 0 < x → x ^ ((69 / 50) : ℝ) = x ^ ((19 / 50) : ℝ) * x ^ 1 := fun x hx => rpow_up hx 1 (by norm_num)
  have e2 : ∀ x : ℝ, 0 < x → x ^ ((119 / 50) : ℝ) = x ^ ((19 / 50) : ℝ) * x ^ 2 := fun x hx => rpow_up hx 2 (by norm_num)
  simp only [out_flap_mass, J_flap_mass__design_wing_loading, sflap_2, body_to_span_ratio_2, u1, dvflap_dwl, vflap_2, u2, sflap, body_to_span_ratio, vflap, vstall, sqrt_eq_rpow]
  (apply hasDerivAt_of_eq; on_goal 1 => (repeat' comp_step))
  all_goals try comp_side
  all_goals try simp (disch := first | assumption | positivity) only [mul_rpow, div_rpow, e0, e1, e2, div_mul_eq_div_div, div_half, inv_half]
  all_goals try simp only [mul_zero, zero_mul, add_zero, zero_add, sub_zero, zero_sub, mul_one, one_mul]
  all_goals try push_cast
  all_goals comp_eq

theorem d_flap_mass__landing_lift_coefficient_max (wing_num_flap_segments sea_level_density
    wing_high_lift_mass_coefficient wing_area wing_flap_chord_ratio wing_taper_ratio
    wing_flap_span_ratio design_wing_loading wing_thickness_to_chord_root wing_span
    fuselage_avg_diameter wing_center_chord landing_lift_coefficient_max : ℝ) (h0 : 0 <
    sea_level_density) (h1 : 0 < landing_lift_coefficient_max) (h2 : 0 < design_wing_loading) (h3
    : 0 < wing_taper_ratio) (h4 : 0 < wing_thickness_to_chord_root) (h5 : 0 < wing_center_chord)
    (h6 : 0 < fuselage_avg_diameter - (wing_thickness_to_chord_root * wing_center_chord)) (h7 : 0
    < wing_span) (h8 : 0 < wing_flap_chord_ratio) (h9 : 0 < wing_area) (h10 : 0 <
    wing_flap_span_ratio - (((2 * (sqrt ((wing_thickness_to_chord_root * wing_center_chord) *
    (fuselage_avg_diameter - (wing_thickness_to_chord_root * wing_center_chord))))) + (2 / 5)) /
    wing_span)) (h11 : 0 < 2 - ((1 - wing_taper_ratio) * (wing_flap_span_ratio + (((2 * (sqrt
    ((wing_thickness_to_chord_root * wing_center_chord) * (fuselage_avg_diameter -
    (wing_thickness_to_chord_root * wing_center_chord))))) + (2 / 5)) / wing_span)))) (h12 : 0 <
    wing_num_flap_segments) (h13 : 0 < wing_flap_span_ratio - (((2 * (sqrt
    ((wing_thickness_to_chord_root * wing_center_chord) * (fuselage_avg_diameter -
    (wing_thickness_to_chord_root * wing_center_chord))))) + (2 / 5)) / wing_span)) (h14 : 0 < 2 -
    ((1 - wing_taper_ratio) * (wing_flap_span_ratio + (((2 * (sqrt ((wing_thickness_to_chord_root
    * wing_center_chord) * (fuselage_avg_diameter - (wing_thickness_to_chord_root *
    wing_center_chord))))) + (2 / 5)) / wing_span)))) :
    HasDerivAt (fun t => out_flap_mass wing_num_flap_segments sea_level_density wing_high_lift_mass_coefficient wing_area wing_flap_chord_ratio wing_taper_ratio wing_flap_span_ratio design_wing_loading wing_thickness_to_chord_root wing_span fuselage_avg_diameter wing_center_chord t) (J_flap_mass__landing_lift_coefficient_max wing_num_flap_segments sea_level_density wing_high_lift_mass_coefficient wing_area wing_flap_chord_ratio wing_taper_ratio wing_flap_span_ratio design_wing_loading wing_thickness_to_chord_root wing_span fuselage_avg_diameter wing_center_chord landing_lift_coefficient_max) landing_lift_coefficient_max := by
  have e0 : ∀ x : ℝ, 0 < x → x ^ ((119 / 100) : ℝ) = x ^ ((19 / 100) : ℝ) * x ^ 1 := fun x hx => rpow_up hx 1 (by norm_num)
  have e1 : ∀ x : ℝ, 0 < x → x ^ ((69 / 50) : ℝ) = x ^ ((19 / 50) : ℝ) * x ^ 1 := fun x hx => rpow_up hx 1 (by norm_num)
  have e2 : ∀ x : ℝ, 0 < x → x ^ ((119 / 50) : ℝ) = x ^ ((19 / 50) : ℝ) * x ^ 2 := fun x hx => rpow_up hx 2 (by norm_num)
  simp only [out_flap_mass, J_flap_mass__landing_lift_coefficient_max, sflap_2, body_to_span_ratio_2, u1, dvflap_dcmfl, vflap_2, u2, sflap, body_to_span_ratio, vflap, vstall, sqrt_eq_rpow]
  (apply hasDerivAt_of_eq; on_goal 1 => (repeat' comp_step))
  all_goals try comp_side
  all_goals try simp (disch := first | assumption | positivity) only [mul_rpow, div_rpow, e0, e1, e2, div_mul_eq_div_div, div_half, inv_half]
  all_goals try simp only [mul_zero, zero_mul, add_zero, zero_add, sub_zero, zero_sub, mul_one, one_mul]
  all_goals try push_cast
  all_goals comp_eq

theorem d_wing_high_lift_mass__wing_high_lift_mass_coefficient (wing_num_flap_segments
    sea_level_density wing_high_lift_mass_coefficient wing_area wing_slat_chord_ratio
    wing_flap_chord_ratio wing_taper_ratio wing_flap_span_ratio wing_slat_span_ratio
    design_wing_loading wing_thickness_to_chord_root wing_span fuselage_avg_diameter
    wing_center_chord landing_lift_coefficient_max : ℝ) (h0 : 0 < sea_level_density) (h1 : 0 <
    landing_lift_coefficient_max) (h2 : 0 < design_wing_loading) (h3 : 0 < wing_taper_ratio) (h4 :
    0 < wing_thickness_to_chord_root) (h5 : 0 < wing_center_chord) (h6 : 0 < fuselage_avg_diameter
    - (wing_thickness_to_chord_root * wing_center_chord)) (h7 : 0 < wing_span) (h8 : 0 <
    wing_flap_chord_ratio) (h9 : 0 < wing_area) (h10 : 0 < wing_flap_span_ratio - (((2 * (sqrt
    ((wing_thickness_to_chord_root * wing_center_chord) * (fuselage_avg_diameter -
    (wing_thickness_to_chord_root * wing_center_chord))))) + (2 / 5)) / wing_span)) (h11 : 0 < 2 -
    ((1 - wing_taper_ratio) * (wing_flap_span_ratio + (((2 * (sqrt ((wing_thickness_to_chord_root
    * wing_center_chord) * (fuselage_avg_diameter - (wing_thickness_to_chord_root *
    wing_center_chord))))) + (2 / 5)) / wing_span)))) (h12 : 0 < wing_num_flap_segments) (h13 : 0
    < wing_slat_chord_ratio) (h14 : 0 < wing_slat_span_ratio) (h15 : 0 < 2 - ((1 -
    wing_taper_ratio) * ((99 / 100) + (((2 * (sqrt ((wing_thickness_to_chord_root *
    wing_center_chord) * (fuselage_avg_diameter - (wing_thickness_to_chord_root *
    wing_center_chord))))) + (2 / 5)) / wing_span)))) (h16 : 0 < wing_flap_span_ratio - (((2 *
    (sqrt ((wing_thickness_to_chord_root * wing_center_chord) * (fuselage_avg_diameter -
    (wing_thickness_to_chord_root * wing_center_chord))))) + (2 / 5)) / wing_span)) (h17 : 0 < 2 -
    ((1 - wing_taper_ratio) * (wing_flap_span_ratio + (((2 * (sqrt ((wing_thickness_to_chord_root
    * wing_center_chord) * (fuselage_avg_diameter - (wing_thickness_to_chord_root *
    wing_center_chord))))) + (2 / 5)) / wing_span)))) :
    HasDerivAt (fun t => out_wing_high_lift_mass wing_num_flap_segments sea_level_density t wing_area wing_slat_chord_ratio wing_flap_chord_ratio wing_taper_ratio wing_flap_span_ratio wing_slat_span_ratio design_wing_loading wing_thickness_to_chord_root wing_span fuselage_avg_diameter wing_center_chord landing_lift_coefficient_max) (J_wing_high_lift_mass__wing_high_lift_mass_coefficient wing_num_flap_segments sea_level_density wing_area wing_flap_chord_ratio wing_taper_ratio wing_flap_span_ratio design_wing_loading wing_thickness_to_chord_root wing_span fuselage_avg_diameter wing_center_chord landing_lift_coefficient_max) wing_high_lift_mass_coefficient := by
  have e0 : ∀ x : ℝ, 0 < x → x ^ ((113 / 100) : ℝ) = x ^ ((13 / 100) : ℝ) * x ^ 1 := fun x hx => rpow_up hx 1 (by norm_num)
  have e1 : ∀ x : ℝ, 0 < x → x ^ ((119 / 100) : ℝ) = x ^ ((19 / 100) : ℝ) * x ^ 1 := fun x hx => rpow_up hx 1 (by norm_num)
  have e2 : ∀ x : ℝ, 0 < x → x ^ ((119 / 50) : ℝ) = x ^ ((19 / 50) : ℝ) * x ^ 2 := fun x hx => rpow_up hx 2 (by norm_num)
  simp only [out_wing_high_lift_mass, J_wing_high_lift_mass__wing_high_lift_mass_coefficient, sflap_2, body_to_span_ratio_2, u1, vflap_2, u2, wled, sle, sflap, body_to_span_ratio, vflap, vstall, sqrt_eq_rpow]
  (apply hasDerivAt_of_eq; on_goal 1 => (repeat' comp_step))
  all_goals try comp_side
  all_goals try simp (disch := first | assumption | positivity) only [e0, e1, e2, div_mul_eq_div_div, div_half, inv_half]
  all_goals try simp only [mul_zero, zero_mul, add_zero, zero_add, sub_zero, zero_sub, mul_one, one_mul]
  all_goals try push_cast
  all_goals comp_eq

theorem d_wing_high_lift_mass__wing_area (wing_num_flap_segments sea_level_density
    wing_high_lift_mass_coefficient wing_area wing_slat_chord_ratio wing_flap_chord_ratio
    wing_taper_ratio wing_flap_span_ratio wing_slat_span_ratio design_wing_loading
    wing_thickness_to_chord_root wing_span fuselage_avg_diameter wing_center_chord
    landing_lift_coefficient_max : ℝ) (h0 : 0 < sea_level_density) (h1 : 0 <
    landing_lift_coefficient_max) (h2 : 0 < design_wing_loading) (h3 : 0 < wing_taper_ratio) (h4 :
    0 < wing_thickness_to_chord_root) (h5 : 0 < wing_center_chord) (h6 : 0 < fuselage_avg_diameter
    - (wing_thickness_to_chord_root * wing_center_chord)) (h7 : 0 < wing_span) (h8 : 0 <
    wing_flap_chord_ratio) (h9 : 0 < wing_area) (h10 : 0 < wing_flap_span_ratio - (((2 * (sqrt
    ((wing_thickness_to_chord_root * wing_center_chord) * (fuselage_avg_diameter -
    (wing_thickness_to_chord_root * wing_center_chord))))) + (2 / 5)) / wing_span)) (h11 : 0 < 2 -
    ((1 - wing_taper_ratio) * (wing_flap_span_ratio + (((2 * (sqrt ((wing_thickness_to_chord_root
    * wing_center_chord) * (fuselage_avg_diameter - (wing_thickness_to_chord_root *
    wing_center_chord))))) + (2 / 5)) / wing_span)))) (h12 : 0 < wing_num_flap_segments) (h13 : 0
    < wing_slat_chord_ratio) (h14 : 0 < wing_slat_span_ratio) (h15 : 0 < 2 - ((1 -
    wing_taper_ratio) * ((99 / 100) + (((2 * (sqrt ((wing_thickness_to_chord_root *
    wing_center_chord) * (fuselage_avg_diameter - (wing_thickness_to_chord_root *
    wing_center_chord))))) + (2 / 5)) / wing_span)))) (h16 : 0 < wing_flap_span_ratio - (((2 *
    (sqrt ((wing_thickness_to_chord_root * wing_center_chord) * (fuselage_avg_diameter -
    (wing_thickness_to_chord_root * wing_center_chord))))) + (2 / 5)) / wing_span)) (h17 : 0 < 2 -
    ((1 - wing_taper_ratio) * (wing_flap_span_ratio + (((2 * (sqrt ((wing_thickness_to_chord_root
    * wing_center_chord) * (fuselage_avg_diameter - (wing_thickness_to_chord_root *
    wing_center_chord))))) + (2 / 5)) / wing_span)))) (h18 : 0 < 2 - ((1 - wing_taper_ratio) *
    ((99 / 100) + (((2 * (sqrt ((wing_thickness_to_chord_root * wing_center_chord) *
    (fuselage_avg_diameter - (wing_thickness_to_chord_root * wing_center_chord))))) + (2 / 5)) /
    wing_span)))) :
    HasDerivAt (fun t => out_wing_high_lift_mass wing_num_flap_segments sea_level_density wing_high_lift_mass_coefficient t wing_slat_chord_ratio wing_flap_chord_ratio wing_taper_ratio wing_flap_span_ratio wing_slat_span_ratio design_wing_loading wing_thickness_to_chord_root wing_span fuselage_avg_diameter wing_center_chord landing_lift_coefficient_max) (J_wing_high_lift_mass__wing_area wing_num_flap_segments sea_level_density wing_high_lift_mass_coefficient wing_area wing_slat_chord_ratio wing_flap_chord_ratio wing_taper_ratio wing_flap_span_ratio wing_slat_span_ratio design_wing_loading wing_thickness_to_chord_root wing_span fuselage_avg_diameter wing_center_chord landing_lift_coefficient_max) wing_area := by
  have hf10 : 0 < wing_flap_span_ratio - (body_to_span_ratio wing_thickness_to_chord_root wing_span fuselage_avg_diameter wing_center_chord) := by simp only [dsle_dwa, sle_2, dsflap_dwa, sflap_2, body_to_span_ratio_2, u1, vflap_2, u2, wled, sle, sflap, body_to_span_ratio, vflap, vstall]; exact h10
  have hf11 : 0 < 2 - ((1 - wing_taper_ratio) * (wing_flap_span_ratio + (body_to_span_ratio wing_thickness_to_chord_root wing_span fuselage_avg_diameter wing_center_chord))) := by simp only [dsle_dwa, sle_2, dsflap_dwa, sflap_2, body_to_span_ratio_2, u1, vflap_2, u2, wled, sle, sflap, body_to_span_ratio, vflap, vstall]; exact h11
  have hf15 : 0 < 2 - ((1 - wing_taper_ratio) * ((99 / 100) + (body_to_span_ratio wing_thickness_to_chord_root wing_span fuselage_avg_diameter wing_center_chord))) := by simp only [dsle_dwa, sle_2, dsflap_dwa, sflap_2, body_to_span_ratio_2, u1, vflap_2, u2, wled, sle, sflap, body_to_span_ratio, vflap, vstall]; exact h15
  have hf16 : 0 < wing_flap_span_ratio - (body_to_span_ratio_2 wing_thickness_to_chord_root wing_span fuselage_avg_diameter wing_center_chord) := by simp only [dsle_dwa, sle_2, dsflap_dwa, sflap_2, body_to_span_ratio_2, u1, vflap_2, u2, wled, sle, sflap, body_to_span_ratio, vflap, vstall]; exact h16
  have hf17 : 0 < 2 - ((1 - wing_taper_ratio) * (wing_flap_span_ratio + (body_to_span_ratio_2 wing_thickness_to_chord_root wing_span fuselage_avg_diameter wing_center_chord))) := by simp only [dsle_dwa, sle_2, dsflap_dwa, sflap_2, body_to_span_ratio_2, u1, vflap_2, u2, wled, sle, sflap, body_to_span_ratio, vflap, vstall]; exact h17
  have hf18 : 0 < 2 - ((1 - wing_taper_ratio) * ((99 / 100) + (body_to_span_ratio_2 wing_thickness_to_chord_root wing_span fuselage_avg_diameter wing_center_chord))) := by simp only [dsle_dwa, sle_2, dsflap_dwa, sflap_2, body_to_span_ratio_2, u1, vflap_2, u2, wled, sle, sflap, body_to_span_ratio, vflap, vstall]; exact h18
  have hp0 : 0 < sle wing_area wing_slat_chord_ratio wing_taper_ratio wing_slat_span_ratio wing_thickness_to_chord_root wing_span fuselage_avg_diameter wing_center_chord := by simp only [dsle_dwa, sle_2, dsflap_dwa, sflap_2, body_to_span_ratio_2, u1, vflap_2, u2, wled, sle, sflap, body_to_span_ratio, vflap, vstall]; comp_side
  have hp1 : 0 < vflap sea_level_density design_wing_loading landing_lift_coefficient_max := by simp only [dsle_dwa, sle_2, dsflap_dwa, sflap_2, body_to_span_ratio_2, u1, vflap_2, u2, wled, sle, sflap, body_to_span_ratio, vflap, vstall]; comp_side
  have hp2 : 0 < sflap wing_area wing_flap_chord_ratio wing_taper_ratio wing_flap_span_ratio wing_thickness_to_chord_root wing_span fuselage_avg_diameter wing_center_chord := by simp only [dsle_dwa, sle_2, dsflap_dwa, sflap_2, body_to_span_ratio_2, u1, vflap_2, u2, wled, sle, sflap, body_to_span_ratio, vflap, vstall]; comp_side
  have hp3 : 0 < vflap_2 sea_level_density design_wing_loading landing_lift_coefficient_max := by simp only [dsle_dwa, sle_2, dsflap_dwa, sflap_2, body_to_span_ratio_2, u1, vflap_2, u2, wled, sle, sflap, body_to_span_ratio, vflap, vstall]; comp_side
  have hp4 : 0 < sflap_2 wing_area wing_flap_chord_ratio wing_taper_ratio wing_flap_span_ratio wing_thickness_to_chord_root wing_span fuselage_avg_diameter wing_center_chord := by simp only [dsle_dwa, sle_2, dsflap_dwa, sflap_2, body_to_span_ratio_2, u1, vflap_2, u2, wled, sle, sflap, body_to_span_ratio, vflap, vstall]; comp_side
  have hp5 : 0 < sle_2 wing_area wing_slat_chord_ratio wing_taper_ratio wing_slat_span_ratio wing_thickness_to_chord_root wing_span fuselage_avg_diameter wing_center_chord := by simp only [dsle_dwa, sle_2, dsflap_dwa, sflap_2, body_to_span_ratio_2, u1, vflap_2, u2, wled, sle, sflap, body_to_span_ratio, vflap, vstall]; comp_side
  have hp6 : 0 < u2 sea_level_density design_wing_loading landing_lift_coefficient_max := by simp only [dsle_dwa, sle_2, dsflap_dwa, sflap_2, body_to_span_ratio_2, u1, vflap_2, u2, wled, sle, sflap, body_to_span_ratio, vflap, vstall]; comp_side
  have hp7 : 0 < u1 wing_thickness_to_chord_root fuselage_avg_diameter wing_center_chord := by simp only [dsle_dwa, sle_2, dsflap_dwa, sflap_2, body_to_span_ratio_2, u1, vflap_2, u2, wled, sle, sflap, body_to_span_ratio, vflap, vstall]; comp_side
  have e0 : ∀ x : ℝ, 0 < x → x ^ ((113 / 100) : ℝ) = x ^ ((13 / 100) : ℝ) * x ^ 1 := fun x hx => rpow_up hx 1 (by norm_num)
  have e1 : ∀ x : ℝ, 0 < x → x ^ ((119 / 100) : ℝ) = x ^ ((19 / 100) : ℝ) * x ^ 1 := fun x hx => rpow_up hx 1 (by norm_num)
  have e2 : ∀ x : ℝ, 0 < x → x ^ ((119 / 50) : ℝ) = x ^ ((19 / 50) : ℝ) * x ^ 2 := fun x hx => rpow_up hx 2 (by norm_num)
  obtain ⟨D_sflap, hD_sflap, k_sflap⟩ : ∃ D : ℝ, D = ((wing_flap_chord_ratio / (1 + wing_taper_ratio)) * (wing_flap_span_ratio - (body_to_span_ratio wing_thickness_to_chord_root wing_span fuselage_avg_diameter wing_center_chord))) * (2 - ((1 - wing_taper_ratio) * (wing_flap_span_ratio + (body_to_span_ratio wing_thickness_to_chord_root wing_span fuselage_avg_diameter wing_center_chord)))) ∧
      HasDerivAt (fun t => sflap t wing_flap_chord_ratio wing_taper_ratio wing_flap_span_ratio wing_thickness_to_chord_root wing_span fuselage_avg_diameter wing_center_chord) D wing_area := by
    refine ⟨_, rfl, ?_⟩
    simp only [sflap]
    apply hasDerivAt_of_eq; on_goal 1 => (repeat' comp_step)
    all_goals try first | comp_side | (apply HasDerivAt.continuousAt; (repeat' comp_step); all_goals comp_side)
    all_goals try simp (disch := first | assumption | positivity) only [e0, e1, e2, div_mul_eq_div_div, div_half, inv_half]
    all_goals try simp only [mul_zero, zero_mul, add_zero, zero_add, sub_zero, zero_sub, mul_one, one_mul, sub_self]
    all_goals try push_cast
    all_goals comp_eq
  obtain ⟨D_sle, hD_sle, k_sle⟩ : ∃ D : ℝ, D = ((wing_slat_chord_ratio / (1 + wing_taper_ratio)) * wing_slat_span_ratio) * (2 - ((1 - wing_taper_ratio) * ((99 / 100) + (body_to_span_ratio wing_thickness_to_chord_root wing_span fuselage_avg_diameter wing_center_chord)))) ∧
      HasDerivAt (fun t => sle t wing_slat_chord_ratio wing_taper_ratio wing_slat_span_ratio wing_thickness_to_chord_root wing_span fuselage_avg_diameter wing_center_chord) D wing_area := by
    refine ⟨_, rfl, ?_⟩
    simp only [sle]
    apply hasDerivAt_of_eq; on_goal 1 => (repeat' comp_step)
    all_goals try first | comp_side | (apply HasDerivAt.continuousAt; (repeat' comp_step); all_goals comp_side)
    all_goals try simp (disch := first | assumption | positivity) only [e0, e1, e2, div_mul_eq_div_div, div_half, inv_half]
    all_goals try simp only [mul_zero, zero_mul, add_zero, zero_add, sub_zero, zero_sub, mul_one, one_mul, sub_self]
    all_goals try push_cast
    all_goals comp_eq
  obtain ⟨D_wled, hD_wled, k_wled⟩ : ∃ D : ℝ, D = (82 / 25) * (((113 / 100) * ((sle wing_area wing_slat_chord_ratio wing_taper_ratio wing_slat_span_ratio wing_thickness_to_chord_root wing_span fuselage_avg_diameter wing_center_chord) ^ ((13 / 100) : ℝ))) * D_sle) ∧
      HasDerivAt (fun t => wled t wing_slat_chord_ratio wing_taper_ratio wing_slat_span_ratio wing_thickness_to_chord_root wing_span fuselage_avg_diameter wing_center_chord) D wing_area := by
    refine ⟨_, rfl, ?_⟩
    simp only [wled]
    apply hasDerivAt_of_eq; on_goal 1 => (repeat' comp_step)
    all_goals try first | comp_side | (apply HasDerivAt.continuousAt; (repeat' comp_step); all_goals comp_side)
    all_goals try simp (disch := first | assumption | positivity) only [e0, e1, e2, div_mul_eq_div_div, div_half, inv_half]
    all_goals try simp only [mul_zero, zero_mul, add_zero, zero_add, sub_zero, zero_sub, mul_one, one_mul, sub_self]
    all_goals try push_cast
    all_goals comp_eq
  have al_sle_2 : sle_2 wing_area wing_slat_chord_ratio wing_taper_ratio wing_slat_span_ratio wing_thickness_to_chord_root wing_span fuselage_avg_diameter wing_center_chord = sle wing_area wing_slat_chord_ratio wing_taper_ratio wing_slat_span_ratio wing_thickness_to_chord_root wing_span fuselage_avg_diameter wing_center_chord := rfl
  have al_sflap_2 : sflap_2 wing_area wing_flap_chord_ratio wing_taper_ratio wing_flap_span_ratio wing_thickness_to_chord_root wing_span fuselage_avg_diameter wing_center_chord = sflap wing_area wing_flap_chord_ratio wing_taper_ratio wing_flap_span_ratio wing_thickness_to_chord_root wing_span fuselage_avg_diameter wing_center_chord := rfl
  have al_body_to_span_ratio_2 : body_to_span_ratio_2 wing_thickness_to_chord_root wing_span fuselage_avg_diameter wing_center_chord = body_to_span_ratio wing_thickness_to_chord_root wing_span fuselage_avg_diameter wing_center_chord := rfl
  have al_vflap_2 : vflap_2 sea_level_density design_wing_loading landing_lift_coefficient_max = vflap sea_level_density design_wing_loading landing_lift_coefficient_max := rfl
  try simp only [out_wing_high_lift_mass, J_wing_high_lift_mass__wing_area, dsle_dwa, dsflap_dwa, u1, u2, al_sle_2, al_sflap_2, al_body_to_span_ratio_2, al_vflap_2]
  all_goals (apply hasDerivAt_of_eq; on_goal 1 => (repeat' comp_step))
  all_goals try first | comp_side | (apply HasDerivAt.continuousAt; (repeat' comp_step); all_goals comp_side)
  all_goals try simp only [hD_sflap, hD_sle, hD_wled]
  all_goals try simp (disch := first | assumption | positivity) only [e0, e1, e2, div_mul_eq_div_div, div_half, inv_half]
  all_goals try simp only [mul_zero, zero_mul, add_zero, zero_add, sub_zero, zero_sub, mul_one, one_mul, sub_self]
  all_goals try push_cast
  all_goals comp_eq

theorem d_wing_high_lift_mass__wing_slat_chord_ratio (wing_num_flap_segments sea_level_density
    wing_high_lift_mass_coefficient wing_area wing_slat_chord_ratio wing_flap_chord_ratio
    wing_taper_ratio wing_flap_span_ratio wing_slat_span_ratio design_wing_loading
    wing_thickness_to_chord_root wing_span fuselage_avg_diameter wing_center_chord
    landing_lift_coefficient_max : ℝ) (h0 : 0 < sea_level_density) (h1 : 0 <
    landing_lift_coefficient_max) (h2 : 0 < design_wing_loading) (h3 : 0 < wing_taper_ratio) (h4 :
    0 < wing_thickness_to_chord_root) (h5 : 0 < wing_center_chord) (h6 : 0 < fuselage_avg_diameter
    - (wing_thickness_to_chord_root * wing_center_chord)) (h7 : 0 < wing_span) (h8 : 0 <
    wing_flap_chord_ratio) (h9 : 0 < wing_area) (h10 : 0 < wing_flap_span_ratio - (((2 * (sqrt
    ((wing_thickness_to_chord_root * wing_center_chord) * (fuselage_avg_diameter -
    (wing_thickness_to_chord_root * wing_center_chord))))) + (2 / 5)) / wing_span)) (h11 : 0 < 2 -
    ((1 - wing_taper_ratio) * (wing_flap_span_ratio + (((2 * (sqrt ((wing_thickness_to_chord_root
    * wing_center_chord) * (fuselage_avg_diameter - (wing_thickness_to_chord_root *
    wing_center_chord))))) + (2 / 5)) / wing_span)))) (h12 : 0 < wing_num_flap_segments) (h13 : 0
    < wing_slat_chord_ratio) (h14 : 0 < wing_slat_span_ratio) (h15 : 0 < 2 - ((1 -
    wing_taper_ratio) * ((99 / 100) + (((2 * (sqrt ((wing_thickness_to_chord_root *
    wing_center_chord) * (fuselage_avg_diameter - (wing_thickness_to_chord_root *
    wing_center_chord))))) + (2 / 5)) / wing_span)))) (h16 : 0 < 2 - ((1 - wing_taper_ratio) *
    ((99 / 100) + (((2 * (sqrt ((wing_thickness_to_chord_root * wing_center_chord) *
    (fuselage_avg_diameter - (wing_thickness_to_chord_root * wing_center_chord))))) + (2 / 5)) /
    wing_span)))) :
    HasDerivAt (fun t => out_wing_high_lift_mass wing_num_flap_segments sea_level_density wing_high_lift_mass_coefficient wing_area t wing_flap_chord_ratio wing_taper_ratio wing_flap_span_ratio wing_slat_span_ratio design_wing_loading wing_thickness_to_chord_root wing_span fuselage_avg_diameter wing_center_chord landing_lift_coefficient_max) (J_wing_high_lift_mass__wing_slat_chord_ratio wing_area wing_slat_chord_ratio wing_taper_ratio wing_slat_span_ratio wing_thickness_to_chord_root wing_span fuselage_avg_diameter wing_center_chord) wing_slat_chord_ratio := by
  have hf10 : 0 < wing_flap_span_ratio - (body_to_span_ratio wing_thickness_to_chord_root wing_span fuselage_avg_diameter wing_center_chord) := by simp only [dsle_dscr, sle_2, body_to_span_ratio_2, u1, wled, sle, sflap, body_to_span_ratio, vflap, vstall]; exact h10
  have hf11 : 0 < 2 - ((1 - wing_taper_ratio) * (wing_flap_span_ratio + (body_to_span_ratio wing_thickness_to_chord_root wing_span fuselage_avg_diameter wing_center_chord))) := by simp only [dsle_dscr, sle_2, body_to_span_ratio_2, u1, wled, sle, sflap, body_to_span_ratio, vflap, vstall]; exact h11
  have hf15 : 0 < 2 - ((1 - wing_taper_ratio) * ((99 / 100) + (body_to_span_ratio wing_thickness_to_chord_root wing_span fuselage_avg_diameter wing_center_chord))) := by simp only [dsle_dscr, sle_2, body_to_span_ratio_2, u1, wled, sle, sflap, body_to_span_ratio, vflap, vstall]; exact h15
  have hf16 : 0 < 2 - ((1 - wing_taper_ratio) * ((99 / 100) + (body_to_span_ratio_2 wing_thickness_to_chord_root wing_span fuselage_avg_diameter wing_center_chord))) := by simp only [dsle_dscr, sle_2, body_to_span_ratio_2, u1, wled, sle, sflap, body_to_span_ratio, vflap, vstall]; exact h16
  have hp0 : 0 < sle wing_area wing_slat_chord_ratio wing_taper_ratio wing_slat_span_ratio wing_thickness_to_chord_root wing_span fuselage_avg_diameter wing_center_chord := by simp only [dsle_dscr, sle_2, body_to_span_ratio_2, u1, wled, sle, sflap, body_to_span_ratio, vflap, vstall]; comp_side
  have hp1 : 0 < vflap sea_level_density design_wing_loading landing_lift_coefficient_max := by simp only [dsle_dscr, sle_2, body_to_span_ratio_2, u1, wled, sle, sflap, body_to_span_ratio, vflap, vstall]; comp_side
  have hp2 : 0 < sflap wing_area wing_flap_chord_ratio wing_taper_ratio wing_flap_span_ratio wing_thickness_to_chord_root wing_span fuselage_avg_diameter wing_center_chord := by simp only [dsle_dscr, sle_2, body_to_span_ratio_2, u1, wled, sle, sflap, body_to_span_ratio, vflap, vstall]; comp_side
  have hp3 : 0 < sle_2 wing_area wing_slat_chord_ratio wing_taper_ratio wing_slat_span_ratio wing_thickness_to_chord_root wing_span fuselage_avg_diameter wing_center_chord := by simp only [dsle_dscr, sle_2, body_to_span_ratio_2, u1, wled, sle, sflap, body_to_span_ratio, vflap, vstall]; comp_side
  have hp4 : 0 < u1 wing_thickness_to_chord_root fuselage_avg_diameter wing_center_chord := by simp only [dsle_dscr, sle_2, body_to_span_ratio_2, u1, wled, sle, sflap, body_to_span_ratio, vflap, vstall]; comp_side
  have e0 : ∀ x : ℝ, 0 < x → x ^ ((113 / 100) : ℝ) = x ^ ((13 / 100) : ℝ) * x ^ 1 := fun x hx => rpow_up hx 1 (by norm_num)
  have e1 : ∀ x : ℝ, 0 < x → x ^ ((119 / 100) : ℝ) = x ^ ((19 / 100) : ℝ) * x ^ 1 := fun x hx => rpow_up hx 1 (by norm_num)
  have e2 : ∀ x : ℝ, 0 < x → x ^ ((119 / 50) : ℝ) = x ^ ((19 / 50) : ℝ) * x ^ 2 := fun x hx => rpow_up hx 2 (by norm_num)
  obtain ⟨D_sle, hD_sle, k_sle⟩ : ∃ D : ℝ, D = ((wing_area / (1 + wing_taper_ratio)) * wing_slat_span_ratio) * (2 - ((1 - wing_taper_ratio) * ((99 / 100) + (body_to_span_ratio wing_thickness_to_chord_root wing_span fuselage_avg_diameter wing_center_chord)))) ∧
      HasDerivAt (fun t => sle wing_area t wing_taper_ratio wing_slat_span_ratio wing_thickness_to_chord_root wing_span fuselage_avg_diameter wing_center_chord) D wing_slat_chord_ratio := by
    refine ⟨_, rfl, ?_⟩
    simp only [sle]
    apply hasDerivAt_of_eq; on_goal 1 => (repeat' comp_step)
    all_goals try first | comp_side | (apply HasDerivAt.continuousAt; (repeat' comp_step); all_goals comp_side)
    all_goals try simp (disch := first | assumption | positivity) only [e0, e1, e2, div_mul_eq_div_div, div_half, inv_half]
    all_goals try simp only [mul_zero, zero_mul, add_zero, zero_add, sub_zero, zero_sub, mul_one, one_mul, sub_self]
    all_goals try push_cast
    all_goals comp_eq
  obtain ⟨D_wled, hD_wled, k_wled⟩ : ∃ D : ℝ, D = (82 / 25) * (((113 / 100) * ((sle wing_area wing_slat_chord_ratio wing_taper_ratio wing_slat_span_ratio wing_thickness_to_chord_root wing_span fuselage_avg_diameter wing_center_chord) ^ ((13 / 100) : ℝ))) * D_sle) ∧
      HasDerivAt (fun t => wled wing_area t wing_taper_ratio wing_slat_span_ratio wing_thickness_to_chord_root wing_span fuselage_avg_diameter wing_center_chord) D wing_slat_chord_ratio := by
    refine ⟨_, rfl, ?_⟩
    simp only [wled]
    apply hasDerivAt_of_eq; on_goal 1 => (repeat' comp_step)
    all_goals try first | comp_side | (apply HasDerivAt.continuousAt; (repeat' comp_step); all_goals comp_side)
    all_goals try simp (disch := first | assumption | positivity) only [e0, e1, e2, div_mul_eq_div_div, div_half, inv_half]
    all_goals try simp only [mul_zero, zero_mul, add_zero, zero_add, sub_zero, zero_sub, mul_one, one_mul, sub_self]
    all_goals try push_cast
    all_goals comp_eq
  have al_sle_2 : sle_2 wing_area wing_slat_chord_ratio wing_taper_ratio wing_slat_span_ratio wing_thickness_to_chord_root wing_span fuselage_avg_diameter wing_center_chord = sle wing_area wing_slat_chord_ratio wing_taper_ratio wing_slat_span_ratio wing_thickness_to_chord_root wing_span fuselage_avg_diameter wing_center_chord := rfl
  have al_body_to_span_ratio_2 : body_to_span_ratio_2 wing_thickness_to_chord_root wing_span fuselage_avg_diameter wing_center_chord = body_to_span_ratio wing_thickness_to_chord_root wing_span fuselage_avg_diameter wing_center_chord := rfl
  try simp only [out_wing_high_lift_mass, J_wing_high_lift_mass__wing_slat_chord_ratio, dsle_dscr, u1, al_sle_2, al_body_to_span_ratio_2]
  all_goals (apply hasDerivAt_of_eq; on_goal 1 => (repeat' comp_step))
  all_goals try first | comp_side | (apply HasDerivAt.continuousAt; (repeat' comp_step); all_goals comp_side)
  all_goals try simp only [hD_sle, hD_wled]
  all_goals try simp (disch := first | assumption | positivity) only [e0, e1, e2, div_mul_eq_div_div, div_half, inv_half]
  all_goals try simp only [mul_zero, zero_mul, add_zero, zero_add, sub_zero, zero_sub, mul_one, one_mul, sub_self]
  all_goals try push_cast
  all_goals comp_eq

theorem d_wing_high_lift_mass__wing_flap_chord_ratio (wing_num_flap_segments sea_level_density
    wing_high_lift_mass_coefficient wing_area wing_slat_chord_ratio wing_flap_chord_ratio
    wing_taper_ratio wing_flap_span_ratio wing_slat_span_ratio design_wing_loading
    wing_thickness_to_chord_root wing_span fuselage_avg_diameter wing_center_chord
    landing_lift_coefficient_max : ℝ) (h0 : 0 < sea_level_density) (h1 : 0 <
    landing_lift_coefficient_max) (h2 : 0 < design_wing_loading) (h3 : 0 < wing_taper_ratio) (h4 :
    0 < wing_thickness_to_chord_root) (h5 : 0 < wing_center_chord) (h6 : 0 < fuselage_avg_diameter
    - (wing_thickness_to_chord_root * wing_center_chord)) (h7 : 0 < wing_span) (h8 : 0 <
    wing_flap_chord_ratio) (h9 : 0 < wing_area) (h10 : 0 < wing_flap_span_ratio - (((2 * (sqrt
    ((wing_thickness_to_chord_root * wing_center_chord) * (fuselage_avg_diameter -
    (wing_thickness_to_chord_root * wing_center_chord))))) + (2 / 5)) / wing_span)) (h11 : 0 < 2 -
    ((1 - wing_taper_ratio) * (wing_flap_span_ratio + (((2 * (sqrt ((wing_thickness_to_chord_root
    * wing_center_chord) * (fuselage_avg_diameter - (wing_thickness_to_chord_root *
    wing_center_chord))))) + (2 / 5)) / wing_span)))) (h12 : 0 < wing_num_flap_segments) (h13 : 0
    < wing_slat_chord_ratio) (h14 : 0 < wing_slat_span_ratio) (h15 : 0 < 2 - ((1 -
    wing_taper_ratio) * ((99 / 100) + (((2 * (sqrt ((wing_thickness_to_chord_root *
    wing_center_chord) * (fuselage_avg_diameter - (wing_thickness_to_chord_root *
    wing_center_chord))))) + (2 / 5)) / wing_span)))) (h16 : 0 < wing_flap_span_ratio - (((2 *
    (sqrt ((wing_thickness_to_chord_root * wing_center_chord) * (fuselage_avg_diameter -
    (wing_thickness_to_chord_root * wing_center_chord))))) + (2 / 5)) / wing_span)) (h17 : 0 < 2 -
    ((1 - wing_taper_ratio) * (wing_flap_span_ratio + (((2 * (sqrt ((wing_thickness_to_chord_root
    * wing_center_chord) * (fuselage_avg_diameter - (wing_thickness_to_chord_root *
    wing_center_chord))))) + (2 / 5)) / wing_span)))) :
    HasDerivAt (fun t => out_wing_high_lift_mass wing_num_flap_segments sea_level_density wing_high_lift_mass_coefficient wing_area wing_slat_chord_ratio t wing_taper_ratio wing_flap_span_ratio wing_slat_span_ratio design_wing_loading wing_thickness_to_chord_root wing_span fuselage_avg_diameter wing_center_chord landing_lift_coefficient_max) (J_wing_high_lift_mass__wing_flap_chord_ratio wing_num_flap_segments sea_level_density wing_high_lift_mass_coefficient wing_area wing_flap_chord_ratio wing_taper_ratio wing_flap_span_ratio design_wing_loading wing_thickness_to_chord_root wing_span fuselage_avg_diameter wing_center_chord landing_lift_coefficient_max) wing_flap_chord_ratio := by
  have hf10 : 0 < wing_flap_span_ratio - (body_to_span_ratio wing_thickness_to_chord_root wing_span fuselage_avg_diameter wing_center_chord) := by simp only [dsflap_dfcr, sflap_2, body_to_span_ratio_2, u1, vflap_2, u2, wled, sle, sflap, body_to_span_ratio, vflap, vstall]; exact h10
  have hf11 : 0 < 2 - ((1 - wing_taper_ratio) * (wing_flap_span_ratio + (body_to_span_ratio wing_thickness_to_chord_root wing_span fuselage_avg_diameter wing_center_chord))) := by simp only [dsflap_dfcr, sflap_2, body_to_span_ratio_2, u1, vflap_2, u2, wled, sle, sflap, body_to_span_ratio, vflap, vstall]; exact h11
  have hf15 : 0 < 2 - ((1 - wing_taper_ratio) * ((99 / 100) + (body_to_span_ratio wing_thickness_to_chord_root wing_span fuselage_avg_diameter wing_center_chord))) := by simp only [dsflap_dfcr, sflap_2, body_to_span_ratio_2, u1, vflap_2, u2, wled, sle, sflap, body_to_span_ratio, vflap, vstall]; exact h15
  have hf16 : 0 < wing_flap_span_ratio - (body_to_span_ratio_2 wing_thickness_to_chord_root wing_span fuselage_avg_diameter wing_center_chord) := by simp only [dsflap_dfcr, sflap_2, body_to_span_ratio_2, u1, vflap_2, u2, wled, sle, sflap, body_to_span_ratio, vflap, vstall]; exact h16
  have hf17 : 0 < 2 - ((1 - wing_taper_ratio) * (wing_flap_span_ratio + (body_to_span_ratio_2 wing_thickness_to_chord_root wing_span fuselage_avg_diameter wing_center_chord))) := by simp only [dsflap_dfcr, sflap_2, body_to_span_ratio_2, u1, vflap_2, u2, wled, sle, sflap, body_to_span_ratio, vflap, vstall]; exact h17
  have hp0 : 0 < sle wing_area wing_slat_chord_ratio wing_taper_ratio wing_slat_span_ratio wing_thickness_to_chord_root wing_span fuselage_avg_diameter wing_center_chord := by simp only [dsflap_dfcr, sflap_2, body_to_span_ratio_2, u1, vflap_2, u2, wled, sle, sflap, body_to_span_ratio, vflap, vstall]; comp_side
  have hp1 : 0 < vflap sea_level_density design_wing_loading landing_lift_coefficient_max := by simp only [dsflap_dfcr, sflap_2, body_to_span_ratio_2, u1, vflap_2, u2, wled, sle, sflap, body_to_span_ratio, vflap, vstall]; comp_side
  have hp2 : 0 < sflap wing_area wing_flap_chord_ratio wing_taper_ratio wing_flap_span_ratio wing_thickness_to_chord_root wing_span fuselage_avg_diameter wing_center_chord := by simp only [dsflap_dfcr, sflap_2, body_to_span_ratio_2, u1, vflap_2, u2, wled, sle, sflap, body_to_span_ratio, vflap, vstall]; comp_side
  have hp3 : 0 < vflap_2 sea_level_density design_wing_loading landing_lift_coefficient_max := by simp only [dsflap_dfcr, sflap_2, body_to_span_ratio_2, u1, vflap_2, u2, wled, sle, sflap, body_to_span_ratio, vflap, vstall]; comp_side
  have hp4 : 0 < sflap_2 wing_area wing_flap_chord_ratio wing_taper_ratio wing_flap_span_ratio wing_thickness_to_chord_root wing_span fuselage_avg_diameter wing_center_chord := by simp only [dsflap_dfcr, sflap_2, body_to_span_ratio_2, u1, vflap_2, u2, wled, sle, sflap, body_to_span_ratio, vflap, vstall]; comp_side
  have hp5 : 0 < u2 sea_level_density design_wing_loading landing_lift_coefficient_max := by simp only [dsflap_dfcr, sflap_2, body_to_span_ratio_2, u1, vflap_2, u2, wled, sle, sflap, body_to_span_ratio, vflap, vstall]; comp_side
  have hp6 : 0 < u1 wing_thickness_to_chord_root fuselage_avg_diameter wing_center_chord := by simp only [dsflap_dfcr, sflap_2, body_to_span_ratio_2, u1, vflap_2, u2, wled, sle, sflap, body_to_span_ratio, vflap, vstall]; comp_side
  have e0 : ∀ x : ℝ, 0 < x → x ^ ((113 / 100) : ℝ) = x ^ ((13 / 100) : ℝ) * x ^ 1 := fun x hx => rpow_up hx 1 (by norm_num)
  have e1 : ∀ x : ℝ, 0 < x → x ^ ((119 / 100) : ℝ) = x ^ ((19 / 100) : ℝ) * x ^ 1 := fun x hx => rpow_up hx 1 (by norm_num)
  have e2 : ∀ x : ℝ, 0 < x → x ^ ((119 / 50) : ℝ) = x ^ ((19 / 50) : ℝ) * x ^ 2 := fun x hx => rpow_up hx 2 (by norm_num)
  obtain ⟨D_sflap, hD_sflap, k_sflap⟩ : ∃ D : ℝ, D = ((wing_area / (1 + wing_taper_ratio)) * (wing_flap_span_ratio - (body_to_span_ratio wing_thickness_to_chord_root wing_span fuselage_avg_diameter wing_center_chord))) * (2 - ((1 - wing_taper_ratio) * (wing_flap_span_ratio + (body_to_span_ratio wing_thickness_to_chord_root wing_span fuselage_avg_diameter wing_center_chord)))) ∧
      HasDerivAt (fun t => sflap wing_area t wing_taper_ratio wing_flap_span_ratio wing_thickness_to_chord_root wing_span fuselage_avg_diameter wing_center_chord) D wing_flap_chord_ratio := by
    refine ⟨_, rfl, ?_⟩
    simp only [sflap]
    apply hasDerivAt_of_eq; on_goal 1 => (repeat' comp_step)
    all_goals try first | comp_side | (apply HasDerivAt.continuousAt; (repeat' comp_step); all_goals comp_side)
    all_goals try simp (disch := first | assumption | positivity) only [e0, e1, e2, div_mul_eq_div_div, div_half, inv_half]
    all_goals try simp only [mul_zero, zero_mul, add_zero, zero_add, sub_zero, zero_sub, mul_one, one_mul, sub_self]
    all_goals try push_cast
    all_goals comp_eq
  have al_sflap_2 : sflap_2 wing_area wing_flap_chord_ratio wing_taper_ratio wing_flap_span_ratio wing_thickness_to_chord_root wing_span fuselage_avg_diameter wing_center_chord = sflap wing_area wing_flap_chord_ratio wing_taper_ratio wing_flap_span_ratio wing_thickness_to_chord_root wing_span fuselage_avg_diameter wing_center_chord := rfl
  have al_body_to_span_ratio_2 : body_to_span_ratio_2 wing_thickness_to_chord_root wing_span fuselage_avg_diameter wing_center_chord = body_to_span_ratio wing_thickness_to_chord_root wing_span fuselage_avg_diameter wing_center_chord := rfl
  have al_vflap_2 : vflap_2 sea_level_density design_wing_loading landing_lift_coefficient_max = vflap sea_level_density design_wing_loading landing_lift_coefficient_max := rfl
  try simp only [out_wing_high_lift_mass, J_wing_high_lift_mass__wing_flap_chord_ratio, dsflap_dfcr, u1, u2, al_sflap_2, al_body_to_span_ratio_2, al_vflap_2]
  all_goals (apply hasDerivAt_of_eq; on_goal 1 => (repeat' comp_step))
  all_goals try first | comp_side | (apply HasDerivAt.continuousAt; (repeat' comp_step); all_goals comp_side)
  all_goals try simp only [hD_sflap]
  all_goals try simp (disch := first | assumption | positivity) only [e0, e1, e2, div_mul_eq_div_div, div_half, inv_half]
  all_goals try simp only [mul_zero, zero_mul, add_zero, zero_add, sub_zero, zero_sub, mul_one, one_mul, sub_self]
  all_goals try push_cast
  all_goals comp_eq

theorem d_wing_high_lift_mass__wing_taper_ratio (wing_num_flap_segments sea_level_density
    wing_high_lift_mass_coefficient wing_area wing_slat_chord_ratio wing_flap_chord_ratio
    wing_taper_ratio wing_flap_span_ratio wing_slat_span_ratio design_wing_loading
    wing_thickness_to_chord_root wing_span fuselage_avg_diameter wing_center_chord
    landing_lift_coefficient_max : ℝ) (h0 : 0 < sea_level_density) (h1 : 0 <
    landing_lift_coefficient_max) (h2 : 0 < design_wing_loading) (h3 : 0 < wing_taper_ratio) (h4 :
    0 < wing_thickness_to_chord_root) (h5 : 0 < wing_center_chord) (h6 : 0 < fuselage_avg_diameter
    - (wing_thickness_to_chord_root * wing_center_chord)) (h7 : 0 < wing_span) (h8 : 0 <
    wing_flap_chord_ratio) (h9 : 0 < wing_area) (h10 : 0 < wing_flap_span_ratio - (((2 * (sqrt
    ((wing_thickness_to_chord_root * wing_center_chord) * (fuselage_avg_diameter -
    (wing_thickness_to_chord_root * wing_center_chord))))) + (2 / 5)) / wing_span)) (h11 : 0 < 2 -
    ((1 - wing_taper_ratio) * (wing_flap_span_ratio + (((2 * (sqrt ((wing_thickness_to_chord_root
    * wing_center_chord) * (fuselage_avg_diameter - (wing_thickness_to_chord_root *
    wing_center_chord))))) + (2 / 5)) / wing_span)))) (h12 : 0 < wing_num_flap_segments) (h13 : 0
    < wing_slat_chord_ratio) (h14 : 0 < wing_slat_span_ratio) (h15 : 0 < 2 - ((1 -
    wing_taper_ratio) * ((99 / 100) + (((2 * (sqrt ((wing_thickness_to_chord_root *
    wing_center_chord) * (fuselage_avg_diameter - (wing_thickness_to_chord_root *
    wing_center_chord))))) + (2 / 5)) / wing_span)))) (h16 : 0 < wing_flap_span_ratio - (((2 *
    (sqrt ((wing_thickness_to_chord_root * wing_center_chord) * (fuselage_avg_diameter -
    (wing_thickness_to_chord_root * wing_center_chord))))) + (2 / 5)) / wing_span)) (h17 : 0 < 2 -
    ((1 - wing_taper_ratio) * (wing_flap_span_ratio + (((2 * (sqrt ((wing_thickness_to_chord_root
    * wing_center_chord) * (fuselage_avg_diameter - (wing_thickness_to_chord_root *
    wing_center_chord))))) + (2 / 5)) / wing_span)))) (h18 : 0 < 2 - ((1 - wing_taper_ratio) *
    ((99 / 100) + (((2 * (sqrt ((wing_thickness_to_chord_root * wing_center_chord) *
    (fuselage_avg_diameter - (wing_thickness_to_chord_root * wing_center_chord))))) + (2 / 5)) /
    wing_span)))) :
    HasDerivAt (fun t => out_wing_high_lift_mass wing_num_flap_segments sea_level_density wing_high_lift_mass_coefficient wing_area wing_slat_chord_ratio wing_flap_chord_ratio t wing_flap_span_ratio wing_slat_span_ratio design_wing_loading wing_thickness_to_chord_root wing_span fuselage_avg_diameter wing_center_chord landing_lift_coefficient_max) (J_wing_high_lift_mass__wing_taper_ratio wing_num_flap_segments sea_level_density wing_high_lift_mass_coefficient wing_area wing_slat_chord_ratio wing_flap_chord_ratio wing_taper_ratio wing_flap_span_ratio wing_slat_span_ratio design_wing_loading wing_thickness_to_chord_root wing_span fuselage_avg_diameter wing_center_chord landing_lift_coefficient_max) wing_taper_ratio := by
  have hf10 : 0 < wing_flap_span_ratio - (body_to_span_ratio wing_thickness_to_chord_root wing_span fuselage_avg_diameter wing_center_chord) := by simp only [dsle_dtr, sle_2, dsflap_dtr, sflap_2, body_to_span_ratio_2, u1, vflap_2, u2, wled, sle, sflap, body_to_span_ratio, vflap, vstall]; exact h10
  have hf11 : 0 < 2 - ((1 - wing_taper_ratio) * (wing_flap_span_ratio + (body_to_span_ratio wing_thickness_to_chord_root wing_span fuselage_avg_diameter wing_center_chord))) := by simp only [dsle_dtr, sle_2, dsflap_dtr, sflap_2, body_to_span_ratio_2, u1, vflap_2, u2, wled, sle, sflap, body_to_span_ratio, vflap, vstall]; exact h11
  have hf15 : 0 < 2 - ((1 - wing_taper_ratio) * ((99 / 100) + (body_to_span_ratio wing_thickness_to_chord_root wing_span fuselage_avg_diameter wing_center_chord))) := by simp only [dsle_dtr, sle_2, dsflap_dtr, sflap_2, body_to_span_ratio_2, u1, vflap_2, u2, wled, sle, sflap, body_to_span_ratio, vflap, vstall]; exact h15
  have hf16 : 0 < wing_flap_span_ratio - (body_to_span_ratio_2 wing_thickness_to_chord_root wing_span fuselage_avg_diameter wing_center_chord) := by simp only [dsle_dtr, sle_2, dsflap_dtr, sflap_2, body_to_span_ratio_2, u1, vflap_2, u2, wled, sle, sflap, body_to_span_ratio, vflap, vstall]; exact h16
  have hf17 : 0 < 2 - ((1 - wing_taper_ratio) * (wing_flap_span_ratio + (body_to_span_ratio_2 wing_thickness_to_chord_root wing_span fuselage_avg_diameter wing_center_chord))) := by simp only [dsle_dtr, sle_2, dsflap_dtr, sflap_2, body_to_span_ratio_2, u1, vflap_2, u2, wled, sle, sflap, body_to_span_ratio, vflap, vstall]; exact h17
  have hf18 : 0 < 2 - ((1 - wing_taper_ratio) * ((99 / 100) + (body_to_span_ratio_2 wing_thickness_to_chord_root wing_span fuselage_avg_diameter wing_center_chord))) := by simp only [dsle_dtr, sle_2, dsflap_dtr, sflap_2, body_to_span_ratio_2, u1, vflap_2, u2, wled, sle, sflap, body_to_span_ratio, vflap, vstall]; exact h18
  have hp0 : 0 < sle wing_area wing_slat_chord_ratio wing_taper_ratio wing_slat_span_ratio wing_thickness_to_chord_root wing_span fuselage_avg_diameter wing_center_chord := by simp only [dsle_dtr, sle_2, dsflap_dtr, sflap_2, body_to_span_ratio_2, u1, vflap_2, u2, wled, sle, sflap, body_to_span_ratio, vflap, vstall]; comp_side
  have hp1 : 0 < vflap sea_level_density design_wing_loading landing_lift_coefficient_max := by simp only [dsle_dtr, sle_2, dsflap_dtr, sflap_2, body_to_span_ratio_2, u1, vflap_2, u2, wled, sle, sflap, body_to_span_ratio, vflap, vstall]; comp_side
  have hp2 : 0 < sflap wing_area wing_flap_chord_ratio wing_taper_ratio wing_flap_span_ratio wing_thickness_to_chord_root wing_span fuselage_avg_diameter wing_center_chord := by simp only [dsle_dtr, sle_2, dsflap_dtr, sflap_2, body_to_span_ratio_2, u1, vflap_2, u2, wled, sle, sflap, body_to_span_ratio, vflap, vstall]; comp_side
  have hp3 : 0 < vflap_2 sea_level_density design_wing_loading landing_lift_coefficient_max := by simp only [dsle_dtr, sle_2, dsflap_dtr, sflap_2, body_to_span_ratio_2, u1, vflap_2, u2, wled, sle, sflap, body_to_span_ratio, vflap, vstall]; comp_side
  have hp4 : 0 < sflap_2 wing_area wing_flap_chord_ratio wing_taper_ratio wing_flap_span_ratio wing_thickness_to_chord_root wing_span fuselage_avg_diameter wing_center_chord := by simp only [dsle_dtr, sle_2, dsflap_dtr, sflap_2, body_to_span_ratio_2, u1, vflap_2, u2, wled, sle, sflap, body_to_span_ratio, vflap, vstall]; comp_side
  have hp5 : 0 < sle_2 wing_area wing_slat_chord_ratio wing_taper_ratio wing_slat_span_ratio wing_thickness_to_chord_root wing_span fuselage_avg_diameter wing_center_chord := by simp only [dsle_dtr, sle_2, dsflap_dtr, sflap_2, body_to_span_ratio_2, u1, vflap_2, u2, wled, sle, sflap, body_to_span_ratio, vflap, vstall]; comp_side
  have hp6 : 0 < u2 sea_level_density design_wing_loading landing_lift_coefficient_max := by simp only [dsle_dtr, sle_2, dsflap_dtr, sflap_2, body_to_span_ratio_2, u1, vflap_2, u2, wled, sle, sflap, body_to_span_ratio, vflap, vstall]; comp_side
  have hp7 : 0 < u1 wing_thickness_to_chord_root fuselage_avg_diameter wing_center_chord := by simp only [dsle_dtr, sle_2, dsflap_dtr, sflap_2, body_to_span_ratio_2, u1, vflap_2, u2, wled, sle, sflap, body_to_span_ratio, vflap, vstall]; comp_side
  have e0 : ∀ x : ℝ, 0 < x → x ^ ((113 / 100) : ℝ) = x ^ ((13 / 100) : ℝ) * x ^ 1 := fun x hx => rpow_up hx 1 (by norm_num)
  have e1 : ∀ x : ℝ, 0 < x → x ^ ((119 / 100) : ℝ) = x ^ ((19 / 100) : ℝ) * x ^ 1 := fun x hx => rpow_up hx 1 (by norm_num)
  have e2 : ∀ x : ℝ, 0 < x → x ^ ((119 / 50) : ℝ) = x ^ ((19 / 50) : ℝ) * x ^ 2 := fun x hx => rpow_up hx 2 (by norm_num)
  obtain ⟨D_sflap, hD_sflap, k_sflap⟩ : ∃ D : ℝ, D = (((-((wing_flap_chord_ratio * wing_area) / ((1 + wing_taper_ratio) ^ 2))) * (wing_flap_span_ratio - (body_to_span_ratio wing_thickness_to_chord_root wing_span fuselage_avg_diameter wing_center_chord))) * (2 - ((1 - wing_taper_ratio) * (wing_flap_span_ratio + (body_to_span_ratio wing_thickness_to_chord_root wing_span fuselage_avg_diameter wing_center_chord))))) + ((((wing_flap_chord_ratio * wing_area) / (1 + wing_taper_ratio)) * (wing_flap_span_ratio - (body_to_span_ratio wing_thickness_to_chord_root wing_span fuselage_avg_diameter wing_center_chord))) * (-((-1) * (wing_flap_span_ratio + (body_to_span_ratio wing_thickness_to_chord_root wing_span fuselage_avg_diameter wing_center_chord))))) ∧
      HasDerivAt (fun t => sflap wing_area wing_flap_chord_ratio t wing_flap_span_ratio wing_thickness_to_chord_root wing_span fuselage_avg_diameter wing_center_chord) D wing_taper_ratio := by
    refine ⟨_, rfl, ?_⟩
    simp only [sflap]
    apply hasDerivAt_of_eq; on_goal 1 => (repeat' comp_step)
    all_goals try first | comp_side | (apply HasDerivAt.continuousAt; (repeat' comp_step); all_goals comp_side)
    all_goals try simp (disch := first | assumption | positivity) only [e0, e1, e2, div_mul_eq_div_div, div_half, inv_half]
    all_goals try simp only [mul_zero, zero_mul, add_zero, zero_add, sub_zero, zero_sub, mul_one, one_mul, sub_self]
    all_goals try push_cast
    all_goals comp_eq
  obtain ⟨D_sle, hD_sle, k_sle⟩ : ∃ D : ℝ, D = (((-((wing_slat_chord_ratio * wing_area) / ((1 + wing_taper_ratio) ^ 2))) * wing_slat_span_ratio) * (2 - ((1 - wing_taper_ratio) * ((99 / 100) + (body_to_span_ratio wing_thickness_to_chord_root wing_span fuselage_avg_diameter wing_center_chord))))) + ((((wing_slat_chord_ratio * wing_area) / (1 + wing_taper_ratio)) * wing_slat_span_ratio) * (-((-1) * ((99 / 100) + (body_to_span_ratio wing_thickness_to_chord_root wing_span fuselage_avg_diameter wing_center_chord))))) ∧
      HasDerivAt (fun t => sle wing_area wing_slat_chord_ratio t wing_slat_span_ratio wing_thickness_to_chord_root wing_span fuselage_avg_diameter wing_center_chord) D wing_taper_ratio := by
    refine ⟨_, rfl, ?_⟩
    simp only [sle]
    apply hasDerivAt_of_eq; on_goal 1 => (repeat' comp_step)
    all_goals try first | comp_side | (apply HasDerivAt.continuousAt; (repeat' comp_step); all_goals comp_side)
    all_goals try simp (disch := first | assumption | positivity) only [e0, e1, e2, div_mul_eq_div_div, div_half, inv_half]
    all_goals try simp only [mul_zero, zero_mul, add_zero, zero_add, sub_zero, zero_sub, mul_one, one_mul, sub_self]
    all_goals try push_cast
    all_goals comp_eq
  obtain ⟨D_wled, hD_wled, k_wled⟩ : ∃ D : ℝ, D = (82 / 25) * (((113 / 100) * ((sle wing_area wing_slat_chord_ratio wing_taper_ratio wing_slat_span_ratio wing_thickness_to_chord_root wing_span fuselage_avg_diameter wing_center_chord) ^ ((13 / 100) : ℝ))) * D_sle) ∧
      HasDerivAt (fun t => wled wing_area wing_slat_chord_ratio t wing_slat_span_ratio wing_thickness_to_chord_root wing_span fuselage_avg_diameter wing_center_chord) D wing_taper_ratio := by
    refine ⟨_, rfl, ?_⟩
    simp only [wled]
    apply hasDerivAt_of_eq; on_goal 1 => (repeat' comp_step)
    all_goals try first | comp_side | (apply HasDerivAt.continuousAt; (repeat' comp_step); all_goals comp_side)
    all_goals try simp (disch := first | assumption | positivity) only [e0, e1, e2, div_mul_eq_div_div, div_half, inv_half]
    all_goals try simp only [mul_zero, zero_mul, add_zero, zero_add, sub_zero, zero_sub, mul_one, one_mul, sub_self]
    all_goals try push_cast
    all_goals comp_eq
  have al_sle_2 : sle_2 wing_area wing_slat_chord_ratio wing_taper_ratio wing_slat_span_ratio wing_thickness_to_chord_root wing_span fuselage_avg_diameter wing_center_chord = sle wing_area wing_slat_chord_ratio wing_taper_ratio wing_slat_span_ratio wing_thickness_to_chord_root wing_span fuselage_avg_diameter wing_center_chord := rfl
  have al_sflap_2 : sflap_2 wing_area wing_flap_chord_ratio wing_taper_ratio wing_flap_span_ratio wing_thickness_to_chord_root wing_span fuselage_avg_diameter wing_center_chord = sflap wing_area wing_flap_chord_ratio wing_taper_ratio wing_flap_span_ratio wing_thickness_to_chord_root wing_span fuselage_avg_diameter wing_center_chord := rfl
  have al_body_to_span_ratio_2 : body_to_span_ratio_2 wing_thickness_to_chord_root wing_span fuselage_avg_diameter wing_center_chord = body_to_span_ratio wing_thickness_to_chord_root wing_span fuselage_avg_diameter wing_center_chord := rfl
  have al_vflap_2 : vflap_2 sea_level_density design_wing_loading landing_lift_coefficient_max = vflap sea_level_density design_wing_loading landing_lift_coefficient_max := rfl
  try simp only [out_wing_high_lift_mass, J_wing_high_lift_mass__wing_taper_ratio, dsle_dtr, dsflap_dtr, u1, u2, al_sle_2, al_sflap_2, al_body_to_span_ratio_2, al_vflap_2]
  all_goals (apply hasDerivAt_of_eq; on_goal 1 => (repeat' comp_step))
  all_goals try first | comp_side | (apply HasDerivAt.continuousAt; (repeat' comp_step); all_goals comp_side)
  all_goals try simp only [hD_sflap, hD_sle, hD_wled]
  all_goals try simp (disch := first | assumption | positivity) only [e0, e1, e2, div_mul_eq_div_div, div_half, inv_half]
  all_goals try simp only [mul_zero, zero_mul, add_zero, zero_add, sub_zero, zero_sub, mul_one, one_mul, sub_self]
  all_goals try push_cast
  all_goals comp_eq

theorem d_wing_high_lift_mass__wing_flap_span_ratio (wing_num_flap_segments sea_level_density
    wing_high_lift_mass_coefficient wing_area wing_slat_chord_ratio wing_flap_chord_ratio
    wing_taper_ratio wing_flap_span_ratio wing_slat_span_ratio design_wing_loading
    wing_thickness_to_chord_root wing_span fuselage_avg_diameter wing_center_chord
    landing_lift_coefficient_max : ℝ) (h0 : 0 < sea_level_density) (h1 : 0 <
    landing_lift_coefficient_max) (h2 : 0 < design_wing_loading) (h3 : 0 < wing_taper_ratio) (h4 :
    0 < wing_thickness_to_chord_root) (h5 : 0 < wing_center_chord) (h6 : 0 < fuselage_avg_diameter
    - (wing_thickness_to_chord_root * wing_center_chord)) (h7 : 0 < wing_span) (h8 : 0 <
    wing_flap_chord_ratio) (h9 : 0 < wing_area) (h10 : 0 < wing_flap_span_ratio - (((2 * (sqrt
    ((wing_thickness_to_chord_root * wing_center_chord) * (fuselage_avg_diameter -
    (wing_thickness_to_chord_root * wing_center_chord))))) + (2 / 5)) / wing_span)) (h11 : 0 < 2 -
    ((1 - wing_taper_ratio) * (wing_flap_span_ratio + (((2 * (sqrt ((wing_thickness_to_chord_root
    * wing_center_chord) * (fuselage_avg_diameter - (wing_thickness_to_chord_root *
    wing_center_chord))))) + (2 / 5)) / wing_span)))) (h12 : 0 < wing_num_flap_segments) (h13 : 0
    < wing_slat_chord_ratio) (h14 : 0 < wing_slat_span_ratio) (h15 : 0 < 2 - ((1 -
    wing_taper_ratio) * ((99 / 100) + (((2 * (sqrt ((wing_thickness_to_chord_root *
    wing_center_chord) * (fuselage_avg_diameter - (wing_thickness_to_chord_root *
    wing_center_chord))))) + (2 / 5)) / wing_span)))) (h16 : 0 < wing_flap_span_ratio - (((2 *
    (sqrt ((wing_thickness_to_chord_root * wing_center_chord) * (fuselage_avg_diameter -
    (wing_thickness_to_chord_root * wing_center_chord))))) + (2 / 5)) / wing_span)) (h17 : 0 < 2 -
    ((1 - wing_taper_ratio) * (wing_flap_span_ratio + (((2 * (sqrt ((wing_thickness_to_chord_root
    * wing_center_chord) * (fuselage_avg_diameter - (wing_thickness_to_chord_root *
    wing_center_chord))))) + (2 / 5)) / wing_span)))) :
    HasDerivAt (fun t => out_wing_high_lift_mass wing_num_flap_segments sea_level_density wing_high_lift_mass_coefficient wing_area wing_slat_chord_ratio wing_flap_chord_ratio wing_taper_ratio t wing_slat_span_ratio design_wing_loading wing_thickness_to_chord_root wing_span fuselage_avg_diameter wing_center_chord landing_lift_coefficient_max) (J_wing_high_lift_mass__wing_flap_span_ratio wing_num_flap_segments sea_level_density wing_high_lift_mass_coefficient wing_area wing_flap_chord_ratio wing_taper_ratio wing_flap_span_ratio design_wing_loading wing_thickness_to_chord_root wing_span fuselage_avg_diameter wing_center_chord landing_lift_coefficient_max) wing_flap_span_ratio := by
  have hf10 : 0 < wing_flap_span_ratio - (body_to_span_ratio wing_thickness_to_chord_root wing_span fuselage_avg_diameter wing_center_chord) := by simp only [dsflap_dfsr, sflap_2, body_to_span_ratio_2, u1, vflap_2, u2, wled, sle, sflap, body_to_span_ratio, vflap, vstall]; exact h10
  have hf11 : 0 < 2 - ((1 - wing_taper_ratio) * (wing_flap_span_ratio + (body_to_span_ratio wing_thickness_to_chord_root wing_span fuselage_avg_diameter wing_center_chord))) := by simp only [dsflap_dfsr, sflap_2, body_to_span_ratio_2, u1, vflap_2, u2, wled, sle, sflap, body_to_span_ratio, vflap, vstall]; exact h11
  have hf15 : 0 < 2 - ((1 - wing_taper_ratio) * ((99 / 100) + (body_to_span_ratio wing_thickness_to_chord_root wing_span fuselage_avg_diameter wing_center_chord))) := by simp only [dsflap_dfsr, sflap_2, body_to_span_ratio_2, u1, vflap_2, u2, wled, sle, sflap, body_to_span_ratio, vflap, vstall]; exact h15
  have hf16 : 0 < wing_flap_span_ratio - (body_to_span_ratio_2 wing_thickness_to_chord_root wing_span fuselage_avg_diameter wing_center_chord) := by simp only [dsflap_dfsr, sflap_2, body_to_span_ratio_2, u1, vflap_2, u2, wled, sle, sflap, body_to_span_ratio, vflap, vstall]; exact h16
  have hf17 : 0 < 2 - ((1 - wing_taper_ratio) * (wing_flap_span_ratio + (body_to_span_ratio_2 wing_thickness_to_chord_root wing_span fuselage_avg_diameter wing_center_chord))) := by simp only [dsflap_dfsr, sflap_2, body_to_span_ratio_2, u1, vflap_2, u2, wled, sle, sflap, body_to_span_ratio, vflap, vstall]; exact h17
  have hp0 : 0 < sle wing_area wing_slat_chord_ratio wing_taper_ratio wing_slat_span_ratio wing_thickness_to_chord_root wing_span fuselage_avg_diameter wing_center_chord := by simp only [dsflap_dfsr, sflap_2, body_to_span_ratio_2, u1, vflap_2, u2, wled, sle, sflap, body_to_span_ratio, vflap, vstall]; comp_side
  have hp1 : 0 < vflap sea_level_density design_wing_loading landing_lift_coefficient_max := by simp only [dsflap_dfsr, sflap_2, body_to_span_ratio_2, u1, vflap_2, u2, wled, sle, sflap, body_to_span_ratio, vflap, vstall]; comp_side
  have hp2 : 0 < sflap wing_area wing_flap_chord_ratio wing_taper_ratio wing_flap_span_ratio wing_thickness_to_chord_root wing_span fuselage_avg_diameter wing_center_chord := by simp only [dsflap_dfsr, sflap_2, body_to_span_ratio_2, u1, vflap_2, u2, wled, sle, sflap, body_to_span_ratio, vflap, vstall]; comp_side
  have hp3 : 0 < vflap_2 sea_level_density design_wing_loading landing_lift_coefficient_max := by simp only [dsflap_dfsr, sflap_2, body_to_span_ratio_2, u1, vflap_2, u2, wled, sle, sflap, body_to_span_ratio, vflap, vstall]; comp_side
  have hp4 : 0 < sflap_2 wing_area wing_flap_chord_ratio wing_taper_ratio wing_flap_span_ratio wing_thickness_to_chord_root wing_span fuselage_avg_diameter wing_center_chord := by simp only [dsflap_dfsr, sflap_2, body_to_span_ratio_2, u1, vflap_2, u2, wled, sle, sflap, body_to_span_ratio, vflap, vstall]; comp_side
  have hp5 : 0 < u2 sea_level_density design_wing_loading landing_lift_coefficient_max := by simp only [dsflap_dfsr, sflap_2, body_to_span_ratio_2, u1, vflap_2, u2, wled, sle, sflap, body_to_span_ratio, vflap, vstall]; comp_side
  have hp6 : 0 < u1 wing_thickness_to_chord_root fuselage_avg_diameter wing_center_chord := by simp only [dsflap_dfsr, sflap_2, body_to_span_ratio_2, u1, vflap_2, u2, wled, sle, sflap, body_to_span_ratio, vflap, vstall]; comp_side
  have e0 : ∀ x : ℝ, 0 < x → x ^ ((113 / 100) : ℝ) = x ^ ((13 / 100) : ℝ) * x ^ 1 := fun x hx => rpow_up hx 1 (by norm_num)
  have e1 : ∀ x : ℝ, 0 < x → x ^ ((119 / 100) : ℝ) = x ^ ((19 / 100) : ℝ) * x ^ 1 := fun x hx => rpow_up hx 1 (by norm_num)
  have e2 : ∀ x : ℝ, 0 < x → x ^ ((119 / 50) : ℝ) = x ^ ((19 / 50) : ℝ) * x ^ 2 := fun x hx => rpow_up hx 2 (by norm_num)
  obtain ⟨D_sflap, hD_sflap, k_sflap⟩ : ∃ D : ℝ, D = (((wing_flap_chord_ratio * wing_area) / (1 + wing_taper_ratio)) * (2 - ((1 - wing_taper_ratio) * (wing_flap_span_ratio + (body_to_span_ratio wing_thickness_to_chord_root wing_span fuselage_avg_diameter wing_center_chord))))) + ((((wing_flap_chord_ratio * wing_area) / (1 + wing_taper_ratio)) * (wing_flap_span_ratio - (body_to_span_ratio wing_thickness_to_chord_root wing_span fuselage_avg_diameter wing_center_chord))) * (-(1 - wing_taper_ratio))) ∧
      HasDerivAt (fun t => sflap wing_area wing_flap_chord_ratio wing_taper_ratio t wing_thickness_to_chord_root wing_span fuselage_avg_diameter wing_center_chord) D wing_flap_span_ratio := by
    refine ⟨_, rfl, ?_⟩
    simp only [sflap]
    apply hasDerivAt_of_eq; on_goal 1 => (repeat' comp_step)
    all_goals try first | comp_side | (apply HasDerivAt.continuousAt; (repeat' comp_step); all_goals comp_side)
    all_goals try simp (disch := first | assumption | positivity) only [e0, e1, e2, div_mul_eq_div_div, div_half, inv_half]
    all_goals try simp only [mul_zero, zero_mul, add_zero, zero_add, sub_zero, zero_sub, mul_one, one_mul, sub_self]
    all_goals try push_cast
    all_goals comp_eq
  have al_sflap_2 : sflap_2 wing_area wing_flap_chord_ratio wing_taper_ratio wing_flap_span_ratio wing_thickness_to_chord_root wing_span fuselage_avg_diameter wing_center_chord = sflap wing_area wing_flap_chord_ratio wing_taper_ratio wing_flap_span_ratio wing_thickness_to_chord_root wing_span fuselage_avg_diameter wing_center_chord := rfl
  have al_body_to_span_ratio_2 : body_to_span_ratio_2 wing_thickness_to_chord_root wing_span fuselage_avg_diameter wing_center_chord = body_to_span_ratio wing_thickness_to_chord_root wing_span fuselage_avg_diameter wing_center_chord := rfl
  have al_vflap_2 : vflap_2 sea_level_density design_wing_loading landing_lift_coefficient_max = vflap sea_level_density design_wing_loading landing_lift_coefficient_max := rfl
  try simp only [out_wing_high_lift_mass, J_wing_high_lift_mass__wing_flap_span_ratio, dsflap_dfsr, u1, u2, al_sflap_2, al_body_to_span_ratio_2, al_vflap_2]
  all_goals (apply hasDerivAt_of_eq; on_goal 1 => (repeat' comp_step))
  all_goals try first | comp_side | (apply HasDerivAt.continuousAt; (repeat' comp_step); all_goals comp_side)
  all_goals try simp only [hD_sflap]
  all_goals try simp (disch := first | assumption | positivity) only [e0, e1, e2, div_mul_eq_div_div, div_half, inv_half]
  all_goals try simp only [mul_zero, zero_mul, add_zero, zero_add, sub_zero, zero_sub, mul_one, one_mul, sub_self]
  all_goals try push_cast
  all_goals comp_eq

theorem d_wing_high_lift_mass__wing_slat_span_ratio (wing_num_flap_segments sea_level_density
    wing_high_lift_mass_coefficient wing_area wing_slat_chord_ratio wing_flap_chord_ratio
    wing_taper_ratio wing_flap_span_ratio wing_slat_span_ratio design_wing_loading
    wing_thickness_to_chord_root wing_span fuselage_avg_diameter wing_center_chord
    landing_lift_coefficient_max : ℝ) (h0 : 0 < sea_level_density) (h1 : 0 <
    landing_lift_coefficient_max) (h2 : 0 < design_wing_loading) (h3 : 0 < wing_taper_ratio) (h4 :
    0 < wing_thickness_to_chord_root) (h5 : 0 < wing_center_chord) (h6 : 0 < fuselage_avg_diameter
    - (wing_thickness_to_chord_root * wing_center_chord)) (h7 : 0 < wing_span) (h8 : 0 <
    wing_flap_chord_ratio) (h9 : 0 < wing_area) (h10 : 0 < wing_flap_span_ratio - (((2 * (sqrt
    ((wing_thickness_to_chord_root * wing_center_chord) * (fuselage_avg_diameter -
    (wing_thickness_to_chord_root * wing_center_chord))))) + (2 / 5)) / wing_span)) (h11 : 0 < 2 -
    ((1 - wing_taper_ratio) * (wing_flap_span_ratio + (((2 * (sqrt ((wing_thickness_to_chord_root
    * wing_center_chord) * (fuselage_avg_diameter - (wing_thickness_to_chord_root *
    wing_center_chord))))) + (2 / 5)) / wing_span)))) (h12 : 0 < wing_num_flap_segments) (h13 : 0
    < wing_slat_chord_ratio) (h14 : 0 < wing_slat_span_ratio) (h15 : 0 < 2 - ((1 -
    wing_taper_ratio) * ((99 / 100) + (((2 * (sqrt ((wing_thickness_to_chord_root *
    wing_center_chord) * (fuselage_avg_diameter - (wing_thickness_to_chord_root *
    wing_center_chord))))) + (2 / 5)) / wing_span)))) (h16 : 0 < 2 - ((1 - wing_taper_ratio) *
    ((99 / 100) + (((2 * (sqrt ((wing_thickness_to_chord_root * wing_center_chord) *
    (fuselage_avg_diameter - (wing_thickness_to_chord_root * wing_center_chord))))) + (2 / 5)) /
    wing_span)))) :
    HasDerivAt (fun t => out_wing_high_lift_mass wing_num_flap_segments sea_level_density wing_high_lift_mass_coefficient wing_area wing_slat_chord_ratio wing_flap_chord_ratio wing_taper_ratio wing_flap_span_ratio t design_wing_loading wing_thickness_to_chord_root wing_span fuselage_avg_diameter wing_center_chord landing_lift_coefficient_max) (J_wing_high_lift_mass__wing_slat_span_ratio wing_area wing_slat_chord_ratio wing_taper_ratio wing_slat_span_ratio wing_thickness_to_chord_root wing_span fuselage_avg_diameter wing_center_chord) wing_slat_span_ratio := by
  have hf10 : 0 < wing_flap_span_ratio - (body_to_span_ratio wing_thickness_to_chord_root wing_span fuselage_avg_diameter wing_center_chord) := by simp only [dsle_dssr, sle_2, body_to_span_ratio_2, u1, wled, sle, sflap, body_to_span_ratio, vflap, vstall]; exact h10
  have hf11 : 0 < 2 - ((1 - wing_taper_ratio) * (wing_flap_span_ratio + (body_to_span_ratio wing_thickness_to_chord_root wing_span fuselage_avg_diameter wing_center_chord))) := by simp only [dsle_dssr, sle_2, body_to_span_ratio_2, u1, wled, sle, sflap, body_to_span_ratio, vflap, vstall]; exact h11
  have hf15 : 0 < 2 - ((1 - wing_taper_ratio) * ((99 / 100) + (body_to_span_ratio wing_thickness_to_chord_root wing_span fuselage_avg_diameter wing_center_chord))) := by simp only [dsle_dssr, sle_2, body_to_span_ratio_2, u1, wled, sle, sflap, body_to_span_ratio, vflap, vstall]; exact h15
  have hf16 : 0 < 2 - ((1 - wing_taper_ratio) * ((99 / 100) + (body_to_span_ratio_2 wing_thickness_to_chord_root wing_span fuselage_avg_diameter wing_center_chord))) := by simp only [dsle_dssr, sle_2, body_to_span_ratio_2, u1, wled, sle, sflap, body_to_span_ratio, vflap, vstall]; exact h16
  have hp0 : 0 < sle wing_area wing_slat_chord_ratio wing_taper_ratio wing_slat_span_ratio wing_thickness_to_chord_root wing_span fuselage_avg_diameter wing_center_chord := by simp only [dsle_dssr, sle_2, body_to_span_ratio_2, u1, wled, sle, sflap, body_to_span_ratio, vflap, vstall]; comp_side
  have hp1 : 0 < vflap sea_level_density design_wing_loading landing_lift_coefficient_max := by simp only [dsle_dssr, sle_2, body_to_span_ratio_2, u1, wled, sle, sflap, body_to_span_ratio, vflap, vstall]; comp_side
  have hp2 : 0 < sflap wing_area wing_flap_chord_ratio wing_taper_ratio wing_flap_span_ratio wing_thickness_to_chord_root wing_span fuselage_avg_diameter wing_center_chord := by simp only [dsle_dssr, sle_2, body_to_span_ratio_2, u1, wled, sle, sflap, body_to_span_ratio, vflap, vstall]; comp_side
  have hp3 : 0 < sle_2 wing_area wing_slat_chord_ratio wing_taper_ratio wing_slat_span_ratio wing_thickness_to_chord_root wing_span fuselage_avg_diameter wing_center_chord := by simp only [dsle_dssr, sle_2, body_to_span_ratio_2, u1, wled, sle, sflap, body_to_span_ratio, vflap, vstall]; comp_side
  have hp4 : 0 < u1 wing_thickness_to_chord_root fuselage_avg_diameter wing_center_chord := by simp only [dsle_dssr, sle_2, body_to_span_ratio_2, u1, wled, sle, sflap, body_to_span_ratio, vflap, vstall]; comp_side
  have e0 : ∀ x : ℝ, 0 < x → x ^ ((113 / 100) : ℝ) = x ^ ((13 / 100) : ℝ) * x ^ 1 := fun x hx => rpow_up hx 1 (by norm_num)
  have e1 : ∀ x : ℝ, 0 < x → x ^ ((119 / 100) : ℝ) = x ^ ((19 / 100) : ℝ) * x ^ 1 := fun x hx => rpow_up hx 1 (by norm_num)
  have e2 : ∀ x : ℝ, 0 < x → x ^ ((119 / 50) : ℝ) = x ^ ((19 / 50) : ℝ) * x ^ 2 := fun x hx => rpow_up hx 2 (by norm_num)
  obtain ⟨D_sle, hD_sle, k_sle⟩ : ∃ D : ℝ, D = ((wing_slat_chord_ratio * wing_area) / (1 + wing_taper_ratio)) * (2 - ((1 - wing_taper_ratio) * ((99 / 100) + (body_to_span_ratio wing_thickness_to_chord_root wing_span fuselage_avg_diameter wing_center_chord)))) ∧
      HasDerivAt (fun t => sle wing_area wing_slat_chord_ratio wing_taper_ratio t wing_thickness_to_chord_root wing_span fuselage_avg_diameter wing_center_chord) D wing_slat_span_ratio := by
    refine ⟨_, rfl, ?_⟩
    simp only [sle]
    apply hasDerivAt_of_eq; on_goal 1 => (repeat' comp_step)
    all_goals try first | comp_side | (apply HasDerivAt.continuousAt; (repeat' comp_step); all_goals comp_side)
    all_goals try simp (disch := first | assumption | positivity) only [e0, e1, e2, div_mul_eq_div_div, div_half, inv_half]
    all_goals try simp only [mul_zero, zero_mul, add_zero, zero_add, sub_zero, zero_sub, mul_one, one_mul, sub_self]
    all_goals try push_cast
    all_goals comp_eq
  obtain ⟨D_wled, hD_wled, k_wled⟩ : ∃ D : ℝ, D = (82 / 25) * (((113 / 100) * ((sle wing_area wing_slat_chord_ratio wing_taper_ratio wing_slat_span_ratio wing_thickness_to_chord_root wing_span fuselage_avg_diameter wing_center_chord) ^ ((13 / 100) : ℝ))) * D_sle) ∧
      HasDerivAt (fun t => wled wing_area wing_slat_chord_ratio wing_taper_ratio t wing_thickness_to_chord_root wing_span fuselage_avg_diameter wing_center_chord) D wing_slat_span_ratio := by
    refine ⟨_, rfl, ?_⟩
    simp only [wled]
    apply hasDerivAt_of_eq; on_goal 1 => (repeat' comp_step)
    all_goals try first | comp_side | (apply HasDerivAt.continuousAt; (repeat' comp_step); all_goals comp_side)
    all_goals try simp (disch := first | assumption | positivity) only [e0, e1, e2, div_mul_eq_div_div, div_half, inv_half]
    all_goals try simp only [mul_zero, zero_mul, add_zero, zero_add, sub_zero, zero_sub, mul_one, one_mul, sub_self]
    all_goals try push_cast
    all_goals comp_eq
  have al_sle_2 : sle_2 wing_area wing_slat_chord_ratio wing_taper_ratio wing_slat_span_ratio wing_thickness_to_chord_root wing_span fuselage_avg_diameter wing_center_chord = sle wing_area wing_slat_chord_ratio wing_taper_ratio wing_slat_span_ratio wing_thickness_to_chord_root wing_span fuselage_avg_diameter wing_center_chord := rfl
  have al_body_to_span_ratio_2 : body_to_span_ratio_2 wing_thickness_to_chord_root wing_span fuselage_avg_diameter wing_center_chord = body_to_span_ratio wing_thickness_to_chord_root wing_span fuselage_avg_diameter wing_center_chord := rfl
  try simp only [out_wing_high_lift_mass, J_wing_high_lift_mass__wing_slat_span_ratio, dsle_dssr, u1, al_sle_2, al_body_to_span_ratio_2]
  all_goals (apply hasDerivAt_of_eq; on_goal 1 => (repeat' comp_step))
  all_goals try first | comp_side | (apply HasDerivAt.continuousAt; (repeat' comp_step); all_goals comp_side)
  all_goals try simp only [hD_sle, hD_wled]
  all_goals try simp (disch := first | assumption | positivity) only [e0, e1, e2, div_mul_eq_div_div, div_half, inv_half]
  all_goals try simp only [mul_zero, zero_mul, add_zero, zero_add, sub_zero, zero_sub, mul_one, one_mul, sub_self]
  all_goals try push_cast
  all_goals comp_eq

theorem d_wing_high_lift_mass__design_wing_loading (wing_num_flap_segments sea_level_density
    wing_high_lift_mass_coefficient wing_area wing_slat_chord_ratio wing_flap_chord_ratio
    wing_taper_ratio wing_flap_span_ratio wing_slat_span_ratio design_wing_loading
    wing_thickness_to_chord_root wing_span fuselage_avg_diameter wing_center_chord
    landing_lift_coefficient_max : ℝ) (h0 : 0 < sea_level_density) (h1 : 0 <
    landing_lift_coefficient_max) (h2 : 0 < design_wing_loading) (h3 : 0 < wing_taper_ratio) (h4 :
    0 < wing_thickness_to_chord_root) (h5 : 0 < wing_center_chord) (h6 : 0 < fuselage_avg_diameter
    - (wing_thickness_to_chord_root * wing_center_chord)) (h7 : 0 < wing_span) (h8 : 0 <
    wing_flap_chord_ratio) (h9 : 0 < wing_area) (h10 : 0 < wing_flap_span_ratio - (((2 * (sqrt
    ((wing_thickness_to_chord_root * wing_center_chord) * (fuselage_avg_diameter -
    (wing_thickness_to_chord_root * wing_center_chord))))) + (2 / 5)) / wing_span)) (h11 : 0 < 2 -
    ((1 - wing_taper_ratio) * (wing_flap_span_ratio + (((2 * (sqrt ((wing_thickness_to_chord_root
    * wing_center_chord) * (fuselage_avg_diameter - (wing_thickness_to_chord_root *
    wing_center_chord))))) + (2 / 5)) / wing_span)))) (h12 : 0 < wing_num_flap_segments) (h13 : 0
    < wing_slat_chord_ratio) (h14 : 0 < wing_slat_span_ratio) (h15 : 0 < 2 - ((1 -
    wing_taper_ratio) * ((99 / 100) + (((2 * (sqrt ((wing_thickness_to_chord_root *
    wing_center_chord) * (fuselage_avg_diameter - (wing_thickness_to_chord_root *
    wing_center_chord))))) + (2 / 5)) / wing_span)))) (h16 : 0 < wing_flap_span_ratio - (((2 *
    (sqrt ((wing_thickness_to_chord_root * wing_center_chord) * (fuselage_avg_diameter -
    (wing_thickness_to_chord_root * wing_center_chord))))) + (2 / 5)) / wing_span)) (h17 : 0 < 2 -
    ((1 - wing_taper_ratio) * (wing_flap_span_ratio + (((2 * (sqrt ((wing_thickness_to_chord_root
    * wing_center_chord) * (fuselage_avg_diameter - (wing_thickness_to_chord_root *
    wing_center_chord))))) + (2 / 5)) / wing_span)))) :
    HasDerivAt (fun t => out_wing_high_lift_mass wing_num_flap_segments sea_level_density wing_high_lift_mass_coefficient wing_area wing_slat_chord_ratio wing_flap_chord_ratio wing_taper_ratio wing_flap_span_ratio wing_slat_span_ratio t wing_thickness_to_chord_root wing_span fuselage_avg_diameter wing_center_chord landing_lift_coefficient_max) (J_wing_high_lift_mass__design_wing_loading wing_num_flap_segments sea_level_density wing_high_lift_mass_coefficient wing_area wing_flap_chord_ratio wing_taper_ratio wing_flap_span_ratio design_wing_loading wing_thickness_to_chord_root wing_span fuselage_avg_diameter wing_center_chord landing_lift_coefficient_max) design_wing_loading := by
  have e0 : ∀ x : ℝ, 0 < x → x ^ ((113 / 100) : ℝ) = x ^ ((13 / 100) : ℝ) * x ^ 1 := fun x hx => rpow_up hx 1 (by norm_num)
  have e1 : ∀ x : ℝ, 0 < x → x ^ ((119 / 100) : ℝ) = x ^ ((19 / 100) : ℝ) * x ^ 1 := fun x hx => rpow_up hx 1 (by norm_num)
  have e2 : ∀ x : ℝ, 0 < x → x ^ ((69 / 50) : ℝ) = x ^ ((19 / 50) : ℝ) * x ^ 1 := fun x hx => rpow_up hx 1 (by norm_num)
  have e3 : ∀ x : ℝ, 0 < x → x ^ ((119 / 50) : ℝ) = x ^ ((19 / 50) : ℝ) * x ^ 2 := fun x hx => rpow_up hx 2 (by norm_num)
  simp only [out_wing_high_lift_mass, J_wing_high_lift_mass__design_wing_loading, sflap_2, body_to_span_ratio_2, u1, dvflap_dwl, vflap_2, u2, wled, sle, sflap, body_to_span_ratio, vflap, vstall, sqrt_eq_rpow]
  (apply hasDerivAt_of_eq; on_goal 1 => (repeat' comp_step))
  all_goals try comp_side
  all_goals try simp (disch := first | assumption | positivity) only [mul_rpow, div_rpow, e0, e1, e2, e3, div_mul_eq_div_div, div_half, inv_half]
  all_goals try simp only [mul_zero, zero_mul, add_zero, zero_add, sub_zero, zero_sub, mul_one, one_mul]
  all_goals try push_cast
  all_goals comp_eq

theorem d_wing_high_lift_mass__landing_lift_coefficient_max (wing_num_flap_segments
    sea_level_density wing_high_lift_mass_coefficient wing_area wing_slat_chord_ratio
    wing_flap_chord_ratio wing_taper_ratio wing_flap_span_ratio wing_slat_span_ratio
    design_wing_loading wing_thickness_to_chord_root wing_span fuselage_avg_diameter
    wing_center_chord landing_lift_coefficient_max : ℝ) (h0 : 0 < sea_level_density) (h1 : 0 <
    landing_lift_coefficient_max) (h2 : 0 < design_wing_loading) (h3 : 0 < wing_taper_ratio) (h4 :
    0 < wing_thickness_to_chord_root) (h5 : 0 < wing_center_chord) (h6 : 0 < fuselage_avg_diameter
    - (wing_thickness_to_chord_root * wing_center_chord)) (h7 : 0 < wing_span) (h8 : 0 <
    wing_flap_chord_ratio) (h9 : 0 < wing_area) (h10 : 0 < wing_flap_span_ratio - (((2 * (sqrt
    ((wing_thickness_to_chord_root * wing_center_chord) * (fuselage_avg_diameter -
    (wing_thickness_to_chord_root * wing_center_chord))))) + (2 / 5)) / wing_span)) (h11 : 0 < 2 -
    ((1 - wing_taper_ratio) * (wing_flap_span_ratio + (((2 * (sqrt ((wing_thickness_to_chord_root
    * wing_center_chord) * (fuselage_avg_diameter - (wing_thickness_to_chord_root *
    wing_center_chord))))) + (2 / 5)) / wing_span)))) (h12 : 0 < wing_num_flap_segments) (h13 : 0
    < wing_slat_chord_ratio) (h14 : 0 < wing_slat_span_ratio) (h15 : 0 < 2 - ((1 -
    wing_taper_ratio) * ((99 / 100) + (((2 * (sqrt ((wing_thickness_to_chord_root *
    wing_center_chord) * (fuselage_avg_diameter - (wing_thickness_to_chord_root *
    wing_center_chord))))) + (2 / 5)) / wing_span)))) (h16 : 0 < wing_flap_span_ratio - (((2 *
    (sqrt ((wing_thickness_to_chord_root * wing_center_chord) * (fuselage_avg_diameter -
    (wing_thickness_to_chord_root * wing_center_chord))))) + (2 / 5)) / wing_span)) (h17 : 0 < 2 -
    ((1 - wing_taper_ratio) * (wing_flap_span_ratio + (((2 * (sqrt ((wing_thickness_to_chord_root
    * wing_center_chord) * (fuselage_avg_diameter - (wing_thickness_to_chord_root *
    wing_center_chord))))) + (2 / 5)) / wing_span)))) :
    HasDerivAt (fun t => out_wing_high_lift_mass wing_num_flap_segments sea_level_density wing_high_lift_mass_coefficient wing_area wing_slat_chord_ratio wing_flap_chord_ratio wing_taper_ratio wing_flap_span_ratio wing_slat_span_ratio design_wing_loading wing_thickness_to_chord_root wing_span fuselage_avg_diameter wing_center_chord t) (J_wing_high_lift_mass__landing_lift_coefficient_max wing_num_flap_segments sea_level_density wing_high_lift_mass_coefficient wing_area wing_flap_chord_ratio wing_taper_ratio wing_flap_span_ratio design_wing_loading wing_thickness_to_chord_root wing_span fuselage_avg_diameter wing_center_chord landing_lift_coefficient_max) landing_lift_coefficient_max := by
  have e0 : ∀ x : ℝ, 0 < x → x ^ ((113 / 100) : ℝ) = x ^ ((13 / 100) : ℝ) * x ^ 1 := fun x hx => rpow_up hx 1 (by norm_num)
  have e1 : ∀ x : ℝ, 0 < x → x ^ ((119 / 100) : ℝ) = x ^ ((19 / 100) : ℝ) * x ^ 1 := fun x hx => rpow_up hx 1 (by norm_num)
  have e2 : ∀ x : ℝ, 0 < x → x ^ ((69 / 50) : ℝ) = x ^ ((19 / 50) : ℝ) * x ^ 1 := fun x hx => rpow_up hx 1 (by norm_num)
  have e3 : ∀ x : ℝ, 0 < x → x ^ ((119 / 50) : ℝ) = x ^ ((19 / 50) : ℝ) * x ^ 2 := fun x hx => rpow_up hx 2 (by norm_num)
  simp only [out_wing_high_lift_mass, J_wing_high_lift_mass__landing_lift_coefficient_max, sflap_2, body_to_span_ratio_2, u1, dvflap_dcmfl, vflap_2, u2, wled, sle, sflap, body_to_span_ratio, vflap, vstall, sqrt_eq_rpow]
  (apply hasDerivAt_of_eq; on_goal 1 => (repeat' comp_step))
  all_goals try comp_side
  all_goals try simp (disch := first | assumption | positivity) only [mul_rpow, div_rpow, e0, e1, e2, e3, div_mul_eq_div_div, div_half, inv_half]
  all_goals try simp only [mul_zero, zero_mul, add_zero, zero_add, sub_zero, zero_sub, mul_one, one_mul]
  all_goals try push_cast
  all_goals comp_eq

/-- Partial derivatives of `HighLiftMass` that are proved correct (the rest is listed in the header). -/
theorem partials_partial (wing_num_flap_segments sea_level_density wing_high_lift_mass_coefficient
    wing_area wing_slat_chord_ratio wing_flap_chord_ratio wing_taper_ratio wing_flap_span_ratio
    wing_slat_span_ratio design_wing_loading wing_thickness_to_chord_root wing_span
    fuselage_avg_diameter wing_center_chord landing_lift_coefficient_max : ℝ) (h0 : 0 <
    wing_taper_ratio) (h1 : 0 < wing_thickness_to_chord_root) (h2 : 0 < wing_center_chord) (h3 : 0
    < fuselage_avg_diameter - (wing_thickness_to_chord_root * wing_center_chord)) (h4 : 0 <
    wing_span) (h5 : 0 < wing_slat_chord_ratio) (h6 : 0 < wing_area) (h7 : 0 <
    wing_slat_span_ratio) (h8 : 0 < 2 - ((1 - wing_taper_ratio) * ((99 / 100) + (((2 * (sqrt
    ((wing_thickness_to_chord_root * wing_center_chord) * (fuselage_avg_diameter -
    (wing_thickness_to_chord_root * wing_center_chord))))) + (2 / 5)) / wing_span)))) (h9 : 0 <
    sea_level_density) (h10 : 0 < landing_lift_coefficient_max) (h11 : 0 < design_wing_loading)
    (h12 : 0 < wing_flap_chord_ratio) (h13 : 0 < wing_flap_span_ratio - (((2 * (sqrt
    ((wing_thickness_to_chord_root * wing_center_chord) * (fuselage_avg_diameter -
    (wing_thickness_to_chord_root * wing_center_chord))))) + (2 / 5)) / wing_span)) (h14 : 0 < 2 -
    ((1 - wing_taper_ratio) * (wing_flap_span_ratio + (((2 * (sqrt ((wing_thickness_to_chord_root
    * wing_center_chord) * (fuselage_avg_diameter - (wing_thickness_to_chord_root *
    wing_center_chord))))) + (2 / 5)) / wing_span)))) (h15 : 0 < wing_num_flap_segments) :
    HasDerivAt (fun t => out_slat_mass t wing_slat_chord_ratio wing_taper_ratio wing_slat_span_ratio
      wing_thickness_to_chord_root wing_span fuselage_avg_diameter wing_center_chord)
      (J_slat_mass__wing_area wing_area wing_slat_chord_ratio wing_taper_ratio
      wing_slat_span_ratio wing_thickness_to_chord_root wing_span fuselage_avg_diameter
      wing_center_chord) wing_area ∧
    HasDerivAt (fun t => out_slat_mass wing_area t wing_taper_ratio wing_slat_span_ratio
      wing_thickness_to_chord_root wing_span fuselage_avg_diameter wing_center_chord)
      (J_slat_mass__wing_slat_chord_ratio wing_area wing_slat_chord_ratio wing_taper_ratio
      wing_slat_span_ratio wing_thickness_to_chord_root wing_span fuselage_avg_diameter
      wing_center_chord) wing_slat_chord_ratio ∧
    HasDerivAt (fun t => out_slat_mass wing_area wing_slat_chord_ratio t wing_slat_span_ratio
      wing_thickness_to_chord_root wing_span fuselage_avg_diameter wing_center_chord)
      (J_slat_mass__wing_taper_ratio wing_area wing_slat_chord_ratio wing_taper_ratio
      wing_slat_span_ratio wing_thickness_to_chord_root wing_span fuselage_avg_diameter
      wing_center_chord) wing_taper_ratio ∧
    HasDerivAt (fun t => out_slat_mass wing_area wing_slat_chord_ratio wing_taper_ratio t
      wing_thickness_to_chord_root wing_span fuselage_avg_diameter wing_center_chord)
      (J_slat_mass__wing_slat_span_ratio wing_area wing_slat_chord_ratio wing_taper_ratio
      wing_slat_span_ratio wing_thickness_to_chord_root wing_span fuselage_avg_diameter
      wing_center_chord) wing_slat_span_ratio ∧
    HasDerivAt (fun t => out_slat_mass wing_area wing_slat_chord_ratio wing_taper_ratio
      wing_slat_span_ratio wing_thickness_to_chord_root t fuselage_avg_diameter wing_center_chord)
      (J_slat_mass__wing_span wing_area wing_slat_chord_ratio wing_taper_ratio
      wing_slat_span_ratio wing_thickness_to_chord_root wing_span fuselage_avg_diameter
      wing_center_chord) wing_span ∧
    HasDerivAt (fun t => out_flap_mass wing_num_flap_segments sea_level_density t wing_area
      wing_flap_chord_ratio wing_taper_ratio wing_flap_span_ratio design_wing_loading
      wing_thickness_to_chord_root wing_span fuselage_avg_diameter wing_center_chord
      landing_lift_coefficient_max) (J_flap_mass__wing_high_lift_mass_coefficient
      wing_num_flap_segments sea_level_density wing_area wing_flap_chord_ratio wing_taper_ratio
      wing_flap_span_ratio design_wing_loading wing_thickness_to_chord_root wing_span
      fuselage_avg_diameter wing_center_chord landing_lift_coefficient_max)
      wing_high_lift_mass_coefficient ∧
    HasDerivAt (fun t => out_flap_mass wing_num_flap_segments sea_level_density
      wing_high_lift_mass_coefficient t wing_flap_chord_ratio wing_taper_ratio
      wing_flap_span_ratio design_wing_loading wing_thickness_to_chord_root wing_span
      fuselage_avg_diameter wing_center_chord landing_lift_coefficient_max)
      (J_flap_mass__wing_area wing_num_flap_segments sea_level_density
      wing_high_lift_mass_coefficient wing_area wing_flap_chord_ratio wing_taper_ratio
      wing_flap_span_ratio design_wing_loading wing_thickness_to_chord_root wing_span
      fuselage_avg_diameter wing_center_chord landing_lift_coefficient_max) wing_area ∧
    HasDerivAt (fun t => out_flap_mass wing_num_flap_segments sea_level_density
      wing_high_lift_mass_coefficient wing_area t wing_taper_ratio wing_flap_span_ratio
      design_wing_loading wing_thickness_to_chord_root wing_span fuselage_avg_diameter
      wing_center_chord landing_lift_coefficient_max) (J_flap_mass__wing_flap_chord_ratio
      wing_num_flap_segments sea_level_density wing_high_lift_mass_coefficient wing_area
      wing_flap_chord_ratio wing_taper_ratio wing_flap_span_ratio design_wing_loading
      wing_thickness_to_chord_root wing_span fuselage_avg_diameter wing_center_chord
      landing_lift_coefficient_max) wing_flap_chord_ratio ∧
    HasDerivAt (fun t => out_flap_mass wing_num_flap_segments sea_level_density
      wing_high_lift_mass_coefficient wing_area wing_flap_chord_ratio t wing_flap_span_ratio
      design_wing_loading wing_thickness_to_chord_root wing_span fuselage_avg_diameter
      wing_center_chord landing_lift_coefficient_max) (J_flap_mass__wing_taper_ratio
      wing_num_flap_segments sea_level_density wing_high_lift_mass_coefficient wing_area
      wing_flap_chord_ratio wing_taper_ratio wing_flap_span_ratio design_wing_loading
      wing_thickness_to_chord_root wing_span fuselage_avg_diameter wing_center_chord
      landing_lift_coefficient_max) wing_taper_ratio ∧
    HasDerivAt (fun t => out_flap_mass wing_num_flap_segments sea_level_density
      wing_high_lift_mass_coefficient wing_area wing_flap_chord_ratio wing_taper_ratio t
      design_wing_loading wing_thickness_to_chord_root wing_span fuselage_avg_diameter
      wing_center_chord landing_lift_coefficient_max) (J_flap_mass__wing_flap_span_ratio
      wing_num_flap_segments sea_level_density wing_high_lift_mass_coefficient wing_area
      wing_flap_chord_ratio wing_taper_ratio wing_flap_span_ratio design_wing_loading
      wing_thickness_to_chord_root wing_span fuselage_avg_diameter wing_center_chord
      landing_lift_coefficient_max) wing_flap_span_ratio ∧
    HasDerivAt (fun t => out_flap_mass wing_num_flap_segments sea_level_density
      wing_high_lift_mass_coefficient wing_area wing_flap_chord_ratio wing_taper_ratio
      wing_flap_span_ratio t wing_thickness_to_chord_root wing_span fuselage_avg_diameter
      wing_center_chord landing_lift_coefficient_max) (J_flap_mass__design_wing_loading
      wing_num_flap_segments sea_level_density wing_high_lift_mass_coefficient wing_area
      wing_flap_chord_ratio wing_taper_ratio wing_flap_span_ratio design_wing_loading
      wing_thickness_to_chord_root wing_span fuselage_avg_diameter wing_center_chord
      landing_lift_coefficient_max) design_wing_loading ∧
    HasDerivAt (fun t => out_flap_mass wing_num_flap_segments sea_level_density
      wing_high_lift_mass_coefficient wing_area wing_flap_chord_ratio wing_taper_ratio
      wing_flap_span_ratio design_wing_loading wing_thickness_to_chord_root wing_span
      fuselage_avg_diameter wing_center_chord t) (J_flap_mass__landing_lift_coefficient_max
      wing_num_flap_segments sea_level_density wing_high_lift_mass_coefficient wing_area
      wing_flap_chord_ratio wing_taper_ratio wing_flap_span_ratio design_wing_loading
      wing_thickness_to_chord_root wing_span fuselage_avg_diameter wing_center_chord
      landing_lift_coefficient_max) landing_lift_coefficient_max ∧
    HasDerivAt (fun t => out_wing_high_lift_mass wing_num_flap_segments sea_level_density t wing_area
      wing_slat_chord_ratio wing_flap_chord_ratio wing_taper_ratio wing_flap_span_ratio
      wing_slat_span_ratio design_wing_loading wing_thickness_to_chord_root wing_span
      fuselage_avg_diameter wing_center_chord landing_lift_coefficient_max)
      (J_wing_high_lift_mass__wing_high_lift_mass_coefficient wing_num_flap_segments
      sea_level_density wing_area wing_flap_chord_ratio wing_taper_ratio wing_flap_span_ratio
      design_wing_loading wing_thickness_to_chord_root wing_span fuselage_avg_diameter
      wing_center_chord landing_lift_coefficient_max) wing_high_lift_mass_coefficient ∧
    HasDerivAt (fun t => out_wing_high_lift_mass wing_num_flap_segments sea_level_density
      wing_high_lift_mass_coefficient t wing_slat_chord_ratio wing_flap_chord_ratio
      wing_taper_ratio wing_flap_span_ratio wing_slat_span_ratio design_wing_loading
      wing_thickness_to_chord_root wing_span fuselage_avg_diameter wing_center_chord
      landing_lift_coefficient_max) (J_wing_high_lift_mass__wing_area wing_num_flap_segments
      sea_level_density wing_high_lift_mass_coefficient wing_area wing_slat_chord_ratio
      wing_flap_chord_ratio wing_taper_ratio wing_flap_span_ratio wing_slat_span_ratio
      design_wing_loading wing_thickness_to_chord_root wing_span fuselage_avg_diameter
      wing_center_chord landing_lift_coefficient_max) wing_area ∧
    HasDerivAt (fun t => out_wing_high_lift_mass wing_num_flap_segments sea_level_density
      wing_high_lift_mass_coefficient wing_area t wing_flap_chord_ratio wing_taper_ratio
      wing_flap_span_ratio wing_slat_span_ratio design_wing_loading wing_thickness_to_chord_root
      wing_span fuselage_avg_diameter wing_center_chord landing_lift_coefficient_max)
      (J_wing_high_lift_mass__wing_slat_chord_ratio wing_area wing_slat_chord_ratio
      wing_taper_ratio wing_slat_span_ratio wing_thickness_to_chord_root wing_span
      fuselage_avg_diameter wing_center_chord) wing_slat_chord_ratio ∧
    HasDerivAt (fun t => out_wing_high_lift_mass wing_num_flap_segments sea_level_density
      wing_high_lift_mass_coefficient wing_area wing_slat_chord_ratio t wing_taper_ratio
      wing_flap_span_ratio wing_slat_span_ratio design_wing_loading wing_thickness_to_chord_root
      wing_span fuselage_avg_diameter wing_center_chord landing_lift_coefficient_max)
      (J_wing_high_lift_mass__wing_flap_chord_ratio wing_num_flap_segments sea_level_density
      wing_high_lift_mass_coefficient wing_area wing_flap_chord_ratio wing_taper_ratio
      wing_flap_span_ratio design_wing_loading wing_thickness_to_chord_root wing_span
      fuselage_avg_diameter wing_center_chord landing_lift_coefficient_max) wing_flap_chord_ratio ∧
    HasDerivAt (fun t => out_wing_high_lift_mass wing_num_flap_segments sea_level_density
      wing_high_lift_mass_coefficient wing_area wing_slat_chord_ratio wing_flap_chord_ratio t
      wing_flap_span_ratio wing_slat_span_ratio design_wing_loading wing_thickness_to_chord_root
      wing_span fuselage_avg_diameter wing_center_chord landing_lift_coefficient_max)
      (J_wing_high_lift_mass__wing_taper_ratio wing_num_flap_segments sea_level_density
      wing_high_lift_mass_coefficient wing_area wing_slat_chord_ratio wing_flap_chord_ratio
      wing_taper_ratio wing_flap_span_ratio wing_slat_span_ratio design_wing_loading
      wing_thickness_to_chord_root wing_span fuselage_avg_diameter wing_center_chord
      landing_lift_coefficient_max) wing_taper_ratio ∧
    HasDerivAt (fun t => out_wing_high_lift_mass wing_num_flap_segments sea_level_density
      wing_high_lift_mass_coefficient wing_area wing_slat_chord_ratio wing_flap_chord_ratio
      wing_taper_ratio t wing_slat_span_ratio design_wing_loading wing_thickness_to_chord_root
      wing_span fuselage_avg_diameter wing_center_chord landing_lift_coefficient_max)
      (J_wing_high_lift_mass__wing_flap_span_ratio wing_num_flap_segments sea_level_density
      wing_high_lift_mass_coefficient wing_area wing_flap_chord_ratio wing_taper_ratio
      wing_flap_span_ratio design_wing_loading wing_thickness_to_chord_root wing_span
      fuselage_avg_diameter wing_center_chord landing_lift_coefficient_max) wing_flap_span_ratio ∧
    HasDerivAt (fun t => out_wing_high_lift_mass wing_num_flap_segments sea_level_density
      wing_high_lift_mass_coefficient wing_area wing_slat_chord_ratio wing_flap_chord_ratio
      wing_taper_ratio wing_flap_span_ratio t design_wing_loading wing_thickness_to_chord_root
      wing_span fuselage_avg_diameter wing_center_chord landing_lift_coefficient_max)
      (J_wing_high_lift_mass__wing_slat_span_ratio wing_area wing_slat_chord_ratio
      wing_taper_ratio wing_slat_span_ratio wing_thickness_to_chord_root wing_span
      fuselage_avg_diameter wing_center_chord) wing_slat_span_ratio ∧
    HasDerivAt (fun t => out_wing_high_lift_mass wing_num_flap_segments sea_level_density
      wing_high_lift_mass_coefficient wing_area wing_slat_chord_ratio wing_flap_chord_ratio
      wing_taper_ratio wing_flap_span_ratio wing_slat_span_ratio t wing_thickness_to_chord_root
      wing_span fuselage_avg_diameter wing_center_chord landing_lift_coefficient_max)
      (J_wing_high_lift_mass__design_wing_loading wing_num_flap_segments sea_level_density
      wing_high_lift_mass_coefficient wing_area wing_flap_chord_ratio wing_taper_ratio
      wing_flap_span_ratio design_wing_loading wing_thickness_to_chord_root wing_span
      fuselage_avg_diameter wing_center_chord landing_lift_coefficient_max) design_wing_loading ∧
    HasDerivAt (fun t => out_wing_high_lift_mass wing_num_flap_segments sea_level_density
      wing_high_lift_mass_coefficient wing_area wing_slat_chord_ratio wing_flap_chord_ratio
      wing_taper_ratio wing_flap_span_ratio wing_slat_span_ratio design_wing_loading
      wing_thickness_to_chord_root wing_span fuselage_avg_diameter wing_center_chord t)
      (J_wing_high_lift_mass__landing_lift_coefficient_max wing_num_flap_segments
      sea_level_density wing_high_lift_mass_coefficient wing_area wing_flap_chord_ratio
      wing_taper_ratio wing_flap_span_ratio design_wing_loading wing_thickness_to_chord_root
      wing_span fuselage_avg_diameter wing_center_chord landing_lift_coefficient_max)
      landing_lift_coefficient_max :=
  ⟨d_slat_mass__wing_area _ _ _ _ _ _ _ _ h0 h1 h2 h3 h4 h5 h6 h7 h8 h8,
    d_slat_mass__wing_slat_chord_ratio _ _ _ _ _ _ _ _ h0 h1 h2 h3 h4 h5 h6 h7 h8 h8,
    d_slat_mass__wing_taper_ratio _ _ _ _ _ _ _ _ h0 h1 h2 h3 h4 h5 h6 h7 h8 h8,
    d_slat_mass__wing_slat_span_ratio _ _ _ _ _ _ _ _ h0 h1 h2 h3 h4 h5 h6 h7 h8 h8,
    d_slat_mass__wing_span _ _ _ _ _ _ _ _ h0 h1 h2 h3 h4 h5 h6 h7 h8 h8,
    d_flap_mass__wing_high_lift_mass_coefficient _ _ _ _ _ _ _ _ _ _ _ _ _ h9 h10 h11 h0 h1 h2 h3
    h4 h12 h6 h13 h14 h15 h13 h14, d_flap_mass__wing_area _ _ _ _ _ _ _ _ _ _ _ _ _ h9 h10 h11 h0
    h1 h2 h3 h4 h12 h6 h13 h14 h15 h13 h14, d_flap_mass__wing_flap_chord_ratio _ _ _ _ _ _ _ _ _ _
    _ _ _ h9 h10 h11 h0 h1 h2 h3 h4 h12 h6 h13 h14 h15 h13 h14, d_flap_mass__wing_taper_ratio _ _
    _ _ _ _ _ _ _ _ _ _ _ h9 h10 h11 h0 h1 h2 h3 h4 h12 h6 h13 h14 h15 h13 h14,
    d_flap_mass__wing_flap_span_ratio _ _ _ _ _ _ _ _ _ _ _ _ _ h9 h10 h11 h0 h1 h2 h3 h4 h12 h6
    h13 h14 h15 h13 h14, d_flap_mass__design_wing_loading _ _ _ _ _ _ _ _ _ _ _ _ _ h9 h10 h11 h0
    h1 h2 h3 h4 h12 h6 h13 h14 h15 h13 h14, d_flap_mass__landing_lift_coefficient_max _ _ _ _ _ _
    _ _ _ _ _ _ _ h9 h10 h11 h0 h1 h2 h3 h4 h12 h6 h13 h14 h15 h13 h14,
    d_wing_high_lift_mass__wing_high_lift_mass_coefficient _ _ _ _ _ _ _ _ _ _ _ _ _ _ _ h9 h10
    h11 h0 h1 h2 h3 h4 h12 h6 h13 h14 h15 h5 h7 h8 h13 h14, d_wing_high_lift_mass__wing_area _ _ _
    _ _ _ _ _ _ _ _ _ _ _ _ h9 h10 h11 h0 h1 h2 h3 h4 h12 h6 h13 h14 h15 h5 h7 h8 h13 h14 h8,
    d_wing_high_lift_mass__wing_slat_chord_ratio _ _ _ _ _ _ _ _ _ _ _ _ _ _ _ h9 h10 h11 h0 h1 h2
    h3 h4 h12 h6 h13 h14 h15 h5 h7 h8 h8, d_wing_high_lift_mass__wing_flap_chord_ratio _ _ _ _ _ _
    _ _ _ _ _ _ _ _ _ h9 h10 h11 h0 h1 h2 h3 h4 h12 h6 h13 h14 h15 h5 h7 h8 h13 h14,
    d_wing_high_lift_mass__wing_taper_ratio _ _ _ _ _ _ _ _ _ _ _ _ _ _ _ h9 h10 h11 h0 h1 h2 h3
    h4 h12 h6 h13 h14 h15 h5 h7 h8 h13 h14 h8, d_wing_high_lift_mass__wing_flap_span_ratio _ _ _ _
    _ _ _ _ _ _ _ _ _ _ _ h9 h10 h11 h0 h1 h2 h3 h4 h12 h6 h13 h14 h15 h5 h7 h8 h13 h14,
    d_wing_high_lift_mass__wing_slat_span_ratio _ _ _ _ _ _ _ _ _ _ _ _ _ _ _ h9 h10 h11 h0 h1 h2
    h3 h4 h12 h6 h13 h14 h15 h5 h7 h8 h8, d_wing_high_lift_mass__design_wing_loading _ _ _ _ _ _ _
    _ _ _ _ _ _ _ _ h9 h10 h11 h0 h1 h2 h3 h4 h12 h6 h13 h14 h15 h5 h7 h8 h13 h14,
    d_wing_high_lift_mass__landing_lift_coefficient_max _ _ _ _ _ _ _ _ _ _ _ _ _ _ _ h9 h10 h11
    h0 h1 h2 h3 h4 h12 h6 h13 h14 h15 h5 h7 h8 h13 h14⟩

example : ∃ wing_num_flap_segments sea_level_density wing_high_lift_mass_coefficient wing_area
      wing_slat_chord_ratio wing_flap_chord_ratio wing_taper_ratio wing_flap_span_ratio
      wing_slat_span_ratio design_wing_loading wing_thickness_to_chord_root wing_span
      fuselage_avg_diameter wing_center_chord landing_lift_coefficient_max : ℝ,
      0 < wing_taper_ratio ∧
      0 < wing_thickness_to_chord_root ∧
      0 < wing_center_chord ∧
      0 < fuselage_avg_diameter - (wing_thickness_to_chord_root * wing_center_chord) ∧
      0 < wing_span ∧
      0 < wing_slat_chord_ratio ∧
      0 < wing_area ∧
      0 < wing_slat_span_ratio ∧
      0 < 2 - ((1 - wing_taper_ratio) * ((99 / 100) + (((2 * (sqrt ((wing_thickness_to_chord_root *
        wing_center_chord) * (fuselage_avg_diameter - (wing_thickness_to_chord_root *
        wing_center_chord))))) + (2 / 5)) / wing_span))) ∧
      0 < sea_level_density ∧
      0 < landing_lift_coefficient_max ∧
      0 < design_wing_loading ∧
      0 < wing_flap_chord_ratio ∧
      0 < wing_flap_span_ratio - (((2 * (sqrt ((wing_thickness_to_chord_root * wing_center_chord) *
        (fuselage_avg_diameter - (wing_thickness_to_chord_root * wing_center_chord))))) + (2 / 5))
        / wing_span) ∧
      0 < 2 - ((1 - wing_taper_ratio) * (wing_flap_span_ratio + (((2 * (sqrt
        ((wing_thickness_to_chord_root * wing_center_chord) * (fuselage_avg_diameter -
        (wing_thickness_to_chord_root * wing_center_chord))))) + (2 / 5)) / wing_span))) ∧
      0 < wing_num_flap_segments :=
  ⟨2, 1, 2, 1, 1, 2, 2, 2, 1, 1, 1, 2, 2, 1, 2, by comp_example, by comp_example, by comp_example,
    by comp_example, by comp_example, by comp_example, by comp_example, by comp_example, by
    comp_example, by comp_example, by comp_example, by comp_example, by comp_example, by
    comp_example, by comp_example, by comp_example⟩

end Verif.Comp.MassGaspBasedFixed.HighLiftMass_fowler

namespace Verif.Comp.MassGaspBasedFixed.HighLiftMass_doubleslottedfowler
open Real

/-- aviary/subsystems/mass/gasp_based/fixed.py:1452 -/
noncomputable def body_to_span_ratio (wing_thickness_to_chord_root wing_span fuselage_avg_diameter wing_center_chord : ℝ) : ℝ :=
  ((2 * (sqrt ((wing_thickness_to_chord_root * wing_center_chord) * (fuselage_avg_diameter -
    (wing_thickness_to_chord_root * wing_center_chord))))) + (2 / 5)) / wing_span

/-- aviary/subsystems/mass/gasp_based/fixed.py:1458 -/
noncomputable def sflap (wing_area wing_flap_chord_ratio wing_taper_ratio wing_flap_span_ratio wing_thickness_to_chord_root wing_span fuselage_avg_diameter wing_center_chord : ℝ) : ℝ :=
  (((wing_flap_chord_ratio * wing_area) / (1 + wing_taper_ratio)) * (wing_flap_span_ratio -
    (body_to_span_ratio wing_thickness_to_chord_root wing_span fuselage_avg_diameter
    wing_center_chord))) * (2 - ((1 - wing_taper_ratio) * (wing_flap_span_ratio +
    (body_to_span_ratio wing_thickness_to_chord_root wing_span fuselage_avg_diameter
    wing_center_chord))))

/-- aviary/subsystems/mass/gasp_based/fixed.py:1466 -/
noncomputable def sle (wing_area wing_slat_chord_ratio wing_taper_ratio wing_slat_span_ratio wing_thickness_to_chord_root wing_span fuselage_avg_diameter wing_center_chord : ℝ) : ℝ :=
  (((wing_slat_chord_ratio * wing_area) / (1 + wing_taper_ratio)) * wing_slat_span_ratio) * (2 -
    ((1 - wing_taper_ratio) * ((99 / 100) + (body_to_span_ratio wing_thickness_to_chord_root
    wing_span fuselage_avg_diameter wing_center_chord))))

/-- aviary/subsystems/mass/gasp_based/fixed.py:1473 -/
noncomputable def vstall (sea_level_density design_wing_loading landing_lift_coefficient_max : ℝ) : ℝ :=
  (5921 / 10000) * (sqrt ((2 * design_wing_loading) / (sea_level_density *
    landing_lift_coefficient_max)))

/-- aviary/subsystems/mass/gasp_based/fixed.py:1474 -/
noncomputable def vflap (sea_level_density design_wing_loading landing_lift_coefficient_max : ℝ) : ℝ :=
  (9 / 5) * (vstall sea_level_density design_wing_loading landing_lift_coefficient_max)

/-- aviary/subsystems/mass/gasp_based/fixed.py:1477 -/
noncomputable def wled (wing_area wing_slat_chord_ratio wing_taper_ratio wing_slat_span_ratio wing_thickness_to_chord_root wing_span fuselage_avg_diameter wing_center_chord : ℝ) : ℝ :=
  (82 / 25) * ((sle wing_area wing_slat_chord_ratio wing_taper_ratio wing_slat_span_ratio
    wing_thickness_to_chord_root wing_span fuselage_avg_diameter wing_center_chord) ^ ((113 /
    100) : ℝ))

/-- aviary/subsystems/mass/gasp_based/fixed.py:1542 -/
noncomputable def u1 (wing_thickness_to_chord_root fuselage_avg_diameter wing_center_chord : ℝ) : ℝ :=
  (wing_thickness_to_chord_root * wing_center_chord) * (fuselage_avg_diameter -
    (wing_thickness_to_chord_root * wing_center_chord))

/-- aviary/subsystems/mass/gasp_based/fixed.py:1543 -/
noncomputable def body_to_span_ratio_2 (wing_thickness_to_chord_root wing_span fuselage_avg_diameter wing_center_chord : ℝ) : ℝ :=
  ((2 * (sqrt (u1 wing_thickness_to_chord_root fuselage_avg_diameter wing_center_chord))) + (2 /
    5)) / wing_span

/-- aviary/subsystems/mass/gasp_based/fixed.py:1544 -/
noncomputable def dbtsr_dwingspan (wing_thickness_to_chord_root wing_span fuselage_avg_diameter wing_center_chord : ℝ) : ℝ :=
  (-(1 / wing_span)) * (body_to_span_ratio_2 wing_thickness_to_chord_root wing_span
    fuselage_avg_diameter wing_center_chord)

/-- aviary/subsystems/mass/gasp_based/fixed.py:1546 -/
noncomputable def dbtsr_dtcrr (wing_thickness_to_chord_root wing_span fuselage_avg_diameter wing_center_chord : ℝ) : ℝ :=
  ((1 / wing_span) * (1 / (sqrt (u1 wing_thickness_to_chord_root fuselage_avg_diameter
    wing_center_chord)))) * ((wing_center_chord * fuselage_avg_diameter) - ((2 *
    wing_thickness_to_chord_root) * (wing_center_chord ^ 2)))

/-- aviary/subsystems/mass/gasp_based/fixed.py:1552 -/
noncomputable def dbtsr_dcc (wing_thickness_to_chord_root wing_span fuselage_avg_diameter wing_center_chord : ℝ) : ℝ :=
  ((1 / wing_span) * (1 / (sqrt (u1 wing_thickness_to_chord_root fuselage_avg_diameter
    wing_center_chord)))) * ((wing_thickness_to_chord_root * fuselage_avg_diameter) - ((2 *
    (wing_thickness_to_chord_root ^ 2)) * wing_center_chord))

/-- aviary/subsystems/mass/gasp_based/fixed.py:1558 -/
noncomputable def dbtsr_dcw (wing_thickness_to_chord_root wing_span fuselage_avg_diameter wing_center_chord : ℝ) : ℝ :=
  ((1 / wing_span) * (1 / (sqrt (u1 wing_thickness_to_chord_root fuselage_avg_diameter
    wing_center_chord)))) * (wing_thickness_to_chord_root * wing_center_chord)

/-- aviary/subsystems/mass/gasp_based/fixed.py:1560 -/
noncomputable def sflap_2 (wing_area wing_flap_chord_ratio wing_taper_ratio wing_flap_span_ratio wing_thickness_to_chord_root wing_span fuselage_avg_diameter wing_center_chord : ℝ) : ℝ :=
  (((wing_flap_chord_ratio * wing_area) / (1 + wing_taper_ratio)) * (wing_flap_span_ratio -
    (body_to_span_ratio_2 wing_thickness_to_chord_root wing_span fuselage_avg_diameter
    wing_center_chord))) * (2 - ((1 - wing_taper_ratio) * (wing_flap_span_ratio +
    (body_to_span_ratio_2 wing_thickness_to_chord_root wing_span fuselage_avg_diameter
    wing_center_chord))))

/-- aviary/subsystems/mass/gasp_based/fixed.py:1568 -/
noncomputable def dsflap_dfcr (wing_area wing_taper_ratio wing_flap_span_ratio wing_thickness_to_chord_root wing_span fuselage_avg_diameter wing_center_chord : ℝ) : ℝ :=
  ((wing_area / (1 + wing_taper_ratio)) * (wing_flap_span_ratio - (body_to_span_ratio_2
    wing_thickness_to_chord_root wing_span fuselage_avg_diameter wing_center_chord))) * (2 - ((1
    - wing_taper_ratio) * (wing_flap_span_ratio + (body_to_span_ratio_2
    wing_thickness_to_chord_root wing_span fuselage_avg_diameter wing_center_chord))))

/-- aviary/subsystems/mass/gasp_based/fixed.py:1575 -/
noncomputable def dsflap_dwa (wing_flap_chord_ratio wing_taper_ratio wing_flap_span_ratio wing_thickness_to_chord_root wing_span fuselage_avg_diameter wing_center_chord : ℝ) : ℝ :=
  ((wing_flap_chord_ratio / (1 + wing_taper_ratio)) * (wing_flap_span_ratio -
    (body_to_span_ratio_2 wing_thickness_to_chord_root wing_span fuselage_avg_diameter
    wing_center_chord))) * (2 - ((1 - wing_taper_ratio) * (wing_flap_span_ratio +
    (body_to_span_ratio_2 wing_thickness_to_chord_root wing_span fuselage_avg_diameter
    wing_center_chord))))

/-- aviary/subsystems/mass/gasp_based/fixed.py:1582 -/
noncomputable def dsflap_dfsr (wing_area wing_flap_chord_ratio wing_taper_ratio wing_flap_span_ratio : ℝ) : ℝ :=
  (wing_flap_chord_ratio * wing_area) * (((2 / (1 + wing_taper_ratio)) * (1 - (2 *
    wing_flap_span_ratio))) + (2 * wing_flap_span_ratio))

/-- aviary/subsystems/mass/gasp_based/fixed.py:1587 -/
noncomputable def dsflap_dbtsr (wing_area wing_flap_chord_ratio wing_taper_ratio wing_thickness_to_chord_root wing_span fuselage_avg_diameter wing_center_chord : ℝ) : ℝ :=
  (wing_flap_chord_ratio * wing_area) * (((2 / (1 + wing_taper_ratio)) * ((2 *
    (body_to_span_ratio_2 wing_thickness_to_chord_root wing_span fuselage_avg_diameter
    wing_center_chord)) - 1)) - (2 * (body_to_span_ratio_2 wing_thickness_to_chord_root
    wing_span fuselage_avg_diameter wing_center_chord)))

/-- aviary/subsystems/mass/gasp_based/fixed.py:1592 -/
noncomputable def dsflap_dtr (wing_area wing_flap_chord_ratio wing_taper_ratio wing_flap_span_ratio wing_thickness_to_chord_root wing_span fuselage_avg_diameter wing_center_chord : ℝ) : ℝ :=
  ((((wing_flap_chord_ratio * wing_area) * (-2)) / ((1 + wing_taper_ratio) ^ 2)) *
    (wing_flap_span_ratio - (body_to_span_ratio_2 wing_thickness_to_chord_root wing_span
    fuselage_avg_diameter wing_center_chord))) * ((1 - wing_flap_span_ratio) -
    (body_to_span_ratio_2 wing_thickness_to_chord_root wing_span fuselage_avg_diameter
    wing_center_chord))

/-- aviary/subsystems/mass/gasp_based/fixed.py:1601 -/
noncomputable def sle_2 (wing_area wing_slat_chord_ratio wing_taper_ratio wing_slat_span_ratio wing_thickness_to_chord_root wing_span fuselage_avg_diameter wing_center_chord : ℝ) : ℝ :=
  (((wing_slat_chord_ratio * wing_area) / (1 + wing_taper_ratio)) * wing_slat_span_ratio) * (2 -
    ((1 - wing_taper_ratio) * ((99 / 100) + (body_to_span_ratio_2 wing_thickness_to_chord_root
    wing_span fuselage_avg_diameter wing_center_chord))))

/-- aviary/subsystems/mass/gasp_based/fixed.py:1608 -/
noncomputable def dsle_dscr (wing_area wing_taper_ratio wing_slat_span_ratio wing_thickness_to_chord_root wing_span fuselage_avg_diameter wing_center_chord : ℝ) : ℝ :=
  ((wing_area / (1 + wing_taper_ratio)) * wing_slat_span_ratio) * (2 - ((1 - wing_taper_ratio) *
    ((99 / 100) + (body_to_span_ratio_2 wing_thickness_to_chord_root wing_span
    fuselage_avg_diameter wing_center_chord))))

/-- aviary/subsystems/mass/gasp_based/fixed.py:1615 -/
noncomputable def dsle_dwa (wing_slat_chord_ratio wing_taper_ratio wing_slat_span_ratio wing_thickness_to_chord_root wing_span fuselage_avg_diameter wing_center_chord : ℝ) : ℝ :=
  ((wing_slat_chord_ratio / (1 + wing_taper_ratio)) * wing_slat_span_ratio) * (2 - ((1 -
    wing_taper_ratio) * ((99 / 100) + (body_to_span_ratio_2 wing_thickness_to_chord_root
    wing_span fuselage_avg_diameter wing_center_chord))))

/-- aviary/subsystems/mass/gasp_based/fixed.py:1622 -/
noncomputable def dsle_dssr (wing_area wing_slat_chord_ratio wing_taper_ratio wing_thickness_to_chord_root wing_span fuselage_avg_diameter wing_center_chord : ℝ) : ℝ :=
  ((wing_slat_chord_ratio * wing_area) / (1 + wing_taper_ratio)) * (2 - ((1 - wing_taper_ratio)
    * ((99 / 100) + (body_to_span_ratio_2 wing_thickness_to_chord_root wing_span
    fuselage_avg_diameter wing_center_chord))))

/-- aviary/subsystems/mass/gasp_based/fixed.py:1627 -/
noncomputable def dsle_dbtsr (wing_area wing_slat_chord_ratio wing_taper_ratio wing_slat_span_ratio : ℝ) : ℝ :=
  (((-(wing_slat_chord_ratio * wing_area)) / (1 + wing_taper_ratio)) * wing_slat_span_ratio) *
    (1 - wing_taper_ratio)

/-- aviary/subsystems/mass/gasp_based/fixed.py:1633 -/
noncomputable def dsle_dtr (wing_area wing_slat_chord_ratio wing_taper_ratio wing_slat_span_ratio wing_thickness_to_chord_root wing_span fuselage_avg_diameter wing_center_chord : ℝ) : ℝ :=
  ((((2 * wing_slat_chord_ratio) * wing_area) * wing_slat_span_ratio) / ((1 + wing_taper_ratio)
    ^ 2)) * (((99 / 100) + (body_to_span_ratio_2 wing_thickness_to_chord_root wing_span
    fuselage_avg_diameter wing_center_chord)) - 1)

/-- aviary/subsystems/mass/gasp_based/fixed.py:1639 -/
noncomputable def u2 (sea_level_density design_wing_loading landing_lift_coefficient_max : ℝ) : ℝ :=
  (2 * design_wing_loading) / (sea_level_density * landing_lift_coefficient_max)

/-- aviary/subsystems/mass/gasp_based/fixed.py:1640 -/
noncomputable def vflap_2 (sea_level_density design_wing_loading landing_lift_coefficient_max : ℝ) : ℝ :=
  (9 / 5) * ((5921 / 10000) * (sqrt (u2 sea_level_density design_wing_loading
    landing_lift_coefficient_max)))

/-- aviary/subsystems/mass/gasp_based/fixed.py:1641 -/
noncomputable def dvflap_dwl (sea_level_density design_wing_loading landing_lift_coefficient_max : ℝ) : ℝ :=
  ((53289 / 50000) * (1 / (sqrt (u2 sea_level_density design_wing_loading
    landing_lift_coefficient_max)))) * (1 / (sea_level_density * landing_lift_coefficient_max))

/-- aviary/subsystems/mass/gasp_based/fixed.py:1645 -/
noncomputable def dvflap_dcmfl (sea_level_density design_wing_loading landing_lift_coefficient_max : ℝ) : ℝ :=
  ((-(53289 / 50000)) * (1 / (sqrt (u2 sea_level_density design_wing_loading
    landing_lift_coefficient_max)))) * (design_wing_loading / (sea_level_density *
    (landing_lift_coefficient_max ^ 2)))

/-- Output `slat_mass` of `HighLiftMass.compute`, aviary/subsystems/mass/gasp_based/fixed.py:1478 -/
noncomputable def out_slat_mass (wing_area wing_slat_chord_ratio wing_taper_ratio wing_slat_span_ratio wing_thickness_to_chord_root wing_span fuselage_avg_diameter wing_center_chord : ℝ) : ℝ :=
  wled wing_area wing_slat_chord_ratio wing_taper_ratio wing_slat_span_ratio
    wing_thickness_to_chord_root wing_span fuselage_avg_diameter wing_center_chord

/-- Output `flap_mass` of `HighLiftMass.compute`, aviary/subsystems/mass/gasp_based/fixed.py:1512 -/
noncomputable def out_flap_mass (wing_num_flap_segments sea_level_density wing_high_lift_mass_coefficient wing_area wing_flap_chord_ratio wing_taper_ratio wing_flap_span_ratio design_wing_loading wing_thickness_to_chord_root wing_span fuselage_avg_diameter wing_center_chord landing_lift_coefficient_max : ℝ) : ℝ :=
  ((wing_high_lift_mass_coefficient * (((vflap sea_level_density design_wing_loading
    landing_lift_coefficient_max) / 100) ^ ((119 / 50) : ℝ))) * ((sflap wing_area
    wing_flap_chord_ratio wing_taper_ratio wing_flap_span_ratio wing_thickness_to_chord_root
    wing_span fuselage_avg_diameter wing_center_chord) ^ ((119 / 100) : ℝ))) /
    (wing_num_flap_segments ^ ((119 / 200) : ℝ))

/-- Output `wing_high_lift_mass` of `HighLiftMass.compute`, aviary/subsystems/mass/gasp_based/fixed.py:1522 -/
noncomputable def out_wing_high_lift_mass (wing_num_flap_segments sea_level_density wing_high_lift_mass_coefficient wing_area wing_slat_chord_ratio wing_flap_chord_ratio wing_taper_ratio wing_flap_span_ratio wing_slat_span_ratio design_wing_loading wing_thickness_to_chord_root wing_span fuselage_avg_diameter wing_center_chord landing_lift_coefficient_max : ℝ) : ℝ :=
  (((wing_high_lift_mass_coefficient * (((vflap sea_level_density design_wing_loading
    landing_lift_coefficient_max) / 100) ^ ((119 / 50) : ℝ))) * ((sflap wing_area
    wing_flap_chord_ratio wing_taper_ratio wing_flap_span_ratio wing_thickness_to_chord_root
    wing_span fuselage_avg_diameter wing_center_chord) ^ ((119 / 100) : ℝ))) /
    (wing_num_flap_segments ^ ((119 / 200) : ℝ))) + (wled wing_area wing_slat_chord_ratio
    wing_taper_ratio wing_slat_span_ratio wing_thickness_to_chord_root wing_span
    fuselage_avg_diameter wing_center_chord)

/-- Partial of `slat_mass` with respect to `wing_slat_chord_ratio` as set by `HighLiftMass`, aviary/subsystems/mass/gasp_based/fixed.py:1650 -/
noncomputable def J_slat_mass__wing_slat_chord_ratio (wing_area wing_slat_chord_ratio wing_taper_ratio wing_slat_span_ratio wing_thickness_to_chord_root wing_span fuselage_avg_diameter wing_center_chord : ℝ) : ℝ :=
  ((4633 / 1250) * ((sle_2 wing_area wing_slat_chord_ratio wing_taper_ratio wing_slat_span_ratio
    wing_thickness_to_chord_root wing_span fuselage_avg_diameter wing_center_chord) ^ ((13 /
    100) : ℝ))) * (dsle_dscr wing_area wing_taper_ratio wing_slat_span_ratio
    wing_thickness_to_chord_root wing_span fuselage_avg_diameter wing_center_chord)

/-- Partial of `slat_mass` with respect to `wing_area` as set by `HighLiftMass`, aviary/subsystems/mass/gasp_based/fixed.py:1653 -/
noncomputable def J_slat_mass__wing_area (wing_area wing_slat_chord_ratio wing_taper_ratio wing_slat_span_ratio wing_thickness_to_chord_root wing_span fuselage_avg_diameter wing_center_chord : ℝ) : ℝ :=
  ((4633 / 1250) * ((sle_2 wing_area wing_slat_chord_ratio wing_taper_ratio wing_slat_span_ratio
    wing_thickness_to_chord_root wing_span fuselage_avg_diameter wing_center_chord) ^ ((13 /
    100) : ℝ))) * (dsle_dwa wing_slat_chord_ratio wing_taper_ratio wing_slat_span_ratio
    wing_thickness_to_chord_root wing_span fuselage_avg_diameter wing_center_chord)

/-- Partial of `slat_mass` with respect to `wing_slat_span_ratio` as set by `HighLiftMass`, aviary/subsystems/mass/gasp_based/fixed.py:1654 -/
noncomputable def J_slat_mass__wing_slat_span_ratio (wing_area wing_slat_chord_ratio wing_taper_ratio wing_slat_span_ratio wing_thickness_to_chord_root wing_span fuselage_avg_diameter wing_center_chord : ℝ) : ℝ :=
  ((4633 / 1250) * ((sle_2 wing_area wing_slat_chord_ratio wing_taper_ratio wing_slat_span_ratio
    wing_thickness_to_chord_root wing_span fuselage_avg_diameter wing_center_chord) ^ ((13 /
    100) : ℝ))) * (dsle_dssr wing_area wing_slat_chord_ratio wing_taper_ratio
    wing_thickness_to_chord_root wing_span fuselage_avg_diameter wing_center_chord)

/-- Partial of `slat_mass` with respect to `wing_taper_ratio` as set by `HighLiftMass`, aviary/subsystems/mass/gasp_based/fixed.py:1657 -/
noncomputable def J_slat_mass__wing_taper_ratio (wing_area wing_slat_chord_ratio wing_taper_ratio wing_slat_span_ratio wing_thickness_to_chord_root wing_span fuselage_avg_diameter wing_center_chord : ℝ) : ℝ :=
  ((4633 / 1250) * ((sle_2 wing_area wing_slat_chord_ratio wing_taper_ratio wing_slat_span_ratio
    wing_thickness_to_chord_root wing_span fuselage_avg_diameter wing_center_chord) ^ ((13 /
    100) : ℝ))) * (dsle_dtr wing_area wing_slat_chord_ratio wing_taper_ratio
    wing_slat_span_ratio wing_thickness_to_chord_root wing_span fuselage_avg_diameter
    wing_center_chord)

/-- Partial of `slat_mass` with respect to `wing_span` as set by `HighLiftMass`, aviary/subsystems/mass/gasp_based/fixed.py:1660 -/
noncomputable def J_slat_mass__wing_span (wing_area wing_slat_chord_ratio wing_taper_ratio wing_slat_span_ratio wing_thickness_to_chord_root wing_span fuselage_avg_diameter wing_center_chord : ℝ) : ℝ :=
  (((4633 / 1250) * ((sle_2 wing_area wing_slat_chord_ratio wing_taper_ratio
    wing_slat_span_ratio wing_thickness_to_chord_root wing_span fuselage_avg_diameter
    wing_center_chord) ^ ((13 / 100) : ℝ))) * (dsle_dbtsr wing_area wing_slat_chord_ratio
    wing_taper_ratio wing_slat_span_ratio)) * (dbtsr_dwingspan wing_thickness_to_chord_root
    wing_span fuselage_avg_diameter wing_center_chord)

/-- Partial of `slat_mass` with respect to `wing_thickness_to_chord_root` as set by `HighLiftMass`, aviary/subsystems/mass/gasp_based/fixed.py:1663 -/
noncomputable def J_slat_mass__wing_thickness_to_chord_root (wing_area wing_slat_chord_ratio wing_taper_ratio wing_slat_span_ratio wing_thickness_to_chord_root wing_span fuselage_avg_diameter wing_center_chord : ℝ) : ℝ :=
  (((4633 / 1250) * ((sle_2 wing_area wing_slat_chord_ratio wing_taper_ratio
    wing_slat_span_ratio wing_thickness_to_chord_root wing_span fuselage_avg_diameter
    wing_center_chord) ^ ((13 / 100) : ℝ))) * (dsle_dbtsr wing_area wing_slat_chord_ratio
    wing_taper_ratio wing_slat_span_ratio)) * (dbtsr_dtcrr wing_thickness_to_chord_root
    wing_span fuselage_avg_diameter wing_center_chord)

/-- Partial of `slat_mass` with respect to `wing_center_chord` as set by `HighLiftMass`, aviary/subsystems/mass/gasp_based/fixed.py:1666 -/
noncomputable def J_slat_mass__wing_center_chord (wing_area wing_slat_chord_ratio wing_taper_ratio wing_slat_span_ratio wing_thickness_to_chord_root wing_span fuselage_avg_diameter wing_center_chord : ℝ) : ℝ :=
  (((4633 / 1250) * ((sle_2 wing_area wing_slat_chord_ratio wing_taper_ratio
    wing_slat_span_ratio wing_thickness_to_chord_root wing_span fuselage_avg_diameter
    wing_center_chord) ^ ((13 / 100) : ℝ))) * (dsle_dbtsr wing_area wing_slat_chord_ratio
    wing_taper_ratio wing_slat_span_ratio)) * (dbtsr_dcc wing_thickness_to_chord_root wing_span
    fuselage_avg_diameter wing_center_chord)

/-- Partial of `slat_mass` with respect to `fuselage_avg_diameter` as set by `HighLiftMass`, aviary/subsystems/mass/gasp_based/fixed.py:1669 -/
noncomputable def J_slat_mass__fuselage_avg_diameter (wing_area wing_slat_chord_ratio wing_taper_ratio wing_slat_span_ratio wing_thickness_to_chord_root wing_span fuselage_avg_diameter wing_center_chord : ℝ) : ℝ :=
  (((4633 / 1250) * ((sle_2 wing_area wing_slat_chord_ratio wing_taper_ratio
    wing_slat_span_ratio wing_thickness_to_chord_root wing_span fuselage_avg_diameter
    wing_center_chord) ^ ((13 / 100) : ℝ))) * (dsle_dbtsr wing_area wing_slat_chord_ratio
    wing_taper_ratio wing_slat_span_ratio)) * (dbtsr_dcw wing_thickness_to_chord_root wing_span
    fuselage_avg_diameter wing_center_chord)

/-- Partial of `flap_mass` with respect to `wing_high_lift_mass_coefficient` as set by `HighLiftMass`, aviary/subsystems/mass/gasp_based/fixed.py:2005 -/
noncomputable def J_flap_mass__wing_high_lift_mass_coefficient (wing_num_flap_segments sea_level_density wing_area wing_flap_chord_ratio wing_taper_ratio wing_flap_span_ratio design_wing_loading wing_thickness_to_chord_root wing_span fuselage_avg_diameter wing_center_chord landing_lift_coefficient_max : ℝ) : ℝ :=
  ((((vflap_2 sea_level_density design_wing_loading landing_lift_coefficient_max) / 100) ^ ((119
    / 50) : ℝ)) * ((sflap_2 wing_area wing_flap_chord_ratio wing_taper_ratio
    wing_flap_span_ratio wing_thickness_to_chord_root wing_span fuselage_avg_diameter
    wing_center_chord) ^ ((119 / 100) : ℝ))) / (wing_num_flap_segments ^ ((119 / 200) : ℝ))

/-- Partial of `flap_mass` with respect to `design_wing_loading` as set by `HighLiftMass`, aviary/subsystems/mass/gasp_based/fixed.py:2008 -/
noncomputable def J_flap_mass__design_wing_loading (wing_num_flap_segments sea_level_density wing_high_lift_mass_coefficient wing_area wing_flap_chord_ratio wing_taper_ratio wing_flap_span_ratio design_wing_loading wing_thickness_to_chord_root wing_span fuselage_avg_diameter wing_center_chord landing_lift_coefficient_max : ℝ) : ℝ :=
  (((wing_high_lift_mass_coefficient * (((119 / 50) * ((vflap_2 sea_level_density
    design_wing_loading landing_lift_coefficient_max) ^ ((69 / 50) : ℝ))) / (100 ^ ((119 / 50) :
    ℝ)))) * (dvflap_dwl sea_level_density design_wing_loading landing_lift_coefficient_max)) *
    ((sflap_2 wing_area wing_flap_chord_ratio wing_taper_ratio wing_flap_span_ratio
    wing_thickness_to_chord_root wing_span fuselage_avg_diameter wing_center_chord) ^ ((119 /
    100) : ℝ))) / (wing_num_flap_segments ^ ((119 / 200) : ℝ))

/-- Partial of `flap_mass` with respect to `landing_lift_coefficient_max` as set by `HighLiftMass`, aviary/subsystems/mass/gasp_based/fixed.py:2016 -/
noncomputable def J_flap_mass__landing_lift_coefficient_max (wing_num_flap_segments sea_level_density wing_high_lift_mass_coefficient wing_area wing_flap_chord_ratio wing_taper_ratio wing_flap_span_ratio design_wing_loading wing_thickness_to_chord_root wing_span fuselage_avg_diameter wing_center_chord landing_lift_coefficient_max : ℝ) : ℝ :=
  (((wing_high_lift_mass_coefficient * (((119 / 50) * ((vflap_2 sea_level_density
    design_wing_loading landing_lift_coefficient_max) ^ ((69 / 50) : ℝ))) / (100 ^ ((119 / 50) :
    ℝ)))) * (dvflap_dcmfl sea_level_density design_wing_loading landing_lift_coefficient_max)) *
    ((sflap_2 wing_area wing_flap_chord_ratio wing_taper_ratio wing_flap_span_ratio
    wing_thickness_to_chord_root wing_span fuselage_avg_diameter wing_center_chord) ^ ((119 /
    100) : ℝ))) / (wing_num_flap_segments ^ ((119 / 200) : ℝ))

/-- Partial of `flap_mass` with respect to `wing_flap_chord_ratio` as set by `HighLiftMass`, aviary/subsystems/mass/gasp_based/fixed.py:2024 -/
noncomputable def J_flap_mass__wing_flap_chord_ratio (wing_num_flap_segments sea_level_density wing_high_lift_mass_coefficient wing_area wing_flap_chord_ratio wing_taper_ratio wing_flap_span_ratio design_wing_loading wing_thickness_to_chord_root wing_span fuselage_avg_diameter wing_center_chord landing_lift_coefficient_max : ℝ) : ℝ :=
  (((wing_high_lift_mass_coefficient * (((vflap_2 sea_level_density design_wing_loading
    landing_lift_coefficient_max) / 100) ^ ((119 / 50) : ℝ))) * ((119 / 100) * ((sflap_2
    wing_area wing_flap_chord_ratio wing_taper_ratio wing_flap_span_ratio
    wing_thickness_to_chord_root wing_span fuselage_avg_diameter wing_center_chord) ^ ((19 /
    100) : ℝ)))) * (dsflap_dfcr wing_area wing_taper_ratio wing_flap_span_ratio
    wing_thickness_to_chord_root wing_span fuselage_avg_diameter wing_center_chord)) /
    (wing_num_flap_segments ^ ((119 / 200) : ℝ))

/-- Partial of `flap_mass` with respect to `wing_area` as set by `HighLiftMass`, aviary/subsystems/mass/gasp_based/fixed.py:2032 -/
noncomputable def J_flap_mass__wing_area (wing_num_flap_segments sea_level_density wing_high_lift_mass_coefficient wing_area wing_flap_chord_ratio wing_taper_ratio wing_flap_span_ratio design_wing_loading wing_thickness_to_chord_root wing_span fuselage_avg_diameter wing_center_chord landing_lift_coefficient_max : ℝ) : ℝ :=
  (((wing_high_lift_mass_coefficient * (((vflap_2 sea_level_density design_wing_loading
    landing_lift_coefficient_max) / 100) ^ ((119 / 50) : ℝ))) * ((119 / 100) * ((sflap_2
    wing_area wing_flap_chord_ratio wing_taper_ratio wing_flap_span_ratio
    wing_thickness_to_chord_root wing_span fuselage_avg_diameter wing_center_chord) ^ ((19 /
    100) : ℝ)))) * (dsflap_dwa wing_flap_chord_ratio wing_taper_ratio wing_flap_span_ratio
    wing_thickness_to_chord_root wing_span fuselage_avg_diameter wing_center_chord)) /
    (wing_num_flap_segments ^ ((119 / 200) : ℝ))

/-- Partial of `flap_mass` with respect to `wing_flap_span_ratio` as set by `HighLiftMass`, aviary/subsystems/mass/gasp_based/fixed.py:2040 -/
noncomputable def J_flap_mass__wing_flap_span_ratio (wing_num_flap_segments sea_level_density wing_high_lift_mass_coefficient wing_area wing_flap_chord_ratio wing_taper_ratio wing_flap_span_ratio design_wing_loading wing_thickness_to_chord_root wing_span fuselage_avg_diameter wing_center_chord landing_lift_coefficient_max : ℝ) : ℝ :=
  (((wing_high_lift_mass_coefficient * (((vflap_2 sea_level_density design_wing_loading
    landing_lift_coefficient_max) / 100) ^ ((119 / 50) : ℝ))) * ((119 / 100) * ((sflap_2
    wing_area wing_flap_chord_ratio wing_taper_ratio wing_flap_span_ratio
    wing_thickness_to_chord_root wing_span fuselage_avg_diameter wing_center_chord) ^ ((19 /
    100) : ℝ)))) * (dsflap_dfsr wing_area wing_flap_chord_ratio wing_taper_ratio
    wing_flap_span_ratio)) / (wing_num_flap_segments ^ ((119 / 200) : ℝ))

/-- Partial of `flap_mass` with respect to `wing_taper_ratio` as set by `HighLiftMass`, aviary/subsystems/mass/gasp_based/fixed.py:2048 -/
noncomputable def J_flap_mass__wing_taper_ratio (wing_num_flap_segments sea_level_density wing_high_lift_mass_coefficient wing_area wing_flap_chord_ratio wing_taper_ratio wing_flap_span_ratio design_wing_loading wing_thickness_to_chord_root wing_span fuselage_avg_diameter wing_center_chord landing_lift_coefficient_max : ℝ) : ℝ :=
  (((wing_high_lift_mass_coefficient * (((vflap_2 sea_level_density design_wing_loading
    landing_lift_coefficient_max) / 100) ^ ((119 / 50) : ℝ))) * ((119 / 100) * ((sflap_2
    wing_area wing_flap_chord_ratio wing_taper_ratio wing_flap_span_ratio
    wing_thickness_to_chord_root wing_span fuselage_avg_diameter wing_center_chord) ^ ((19 /
    100) : ℝ)))) * (dsflap_dtr wing_area wing_flap_chord_ratio wing_taper_ratio
    wing_flap_span_ratio wing_thickness_to_chord_root wing_span fuselage_avg_diameter
    wing_center_chord)) / (wing_num_flap_segments ^ ((119 / 200) : ℝ))

/-- Partial of `flap_mass` with respect to `wing_span` as set by `HighLiftMass`, aviary/subsystems/mass/gasp_based/fixed.py:2056 -/
noncomputable def J_flap_mass__wing_span (wing_num_flap_segments sea_level_density wing_high_lift_mass_coefficient wing_area wing_flap_chord_ratio wing_taper_ratio wing_flap_span_ratio design_wing_loading wing_thickness_to_chord_root wing_span fuselage_avg_diameter wing_center_chord landing_lift_coefficient_max : ℝ) : ℝ :=
  ((((wing_high_lift_mass_coefficient * (((vflap_2 sea_level_density design_wing_loading
    landing_lift_coefficient_max) / 100) ^ ((119 / 50) : ℝ))) * ((119 / 100) * ((sflap_2
    wing_area wing_flap_chord_ratio wing_taper_ratio wing_flap_span_ratio
    wing_thickness_to_chord_root wing_span fuselage_avg_diameter wing_center_chord) ^ ((19 /
    100) : ℝ)))) * (dsflap_dbtsr wing_area wing_flap_chord_ratio wing_taper_ratio
    wing_thickness_to_chord_root wing_span fuselage_avg_diameter wing_center_chord)) *
    (dbtsr_dwingspan wing_thickness_to_chord_root wing_span fuselage_avg_diameter
    wing_center_chord)) / (wing_num_flap_segments ^ ((119 / 200) : ℝ))

/-- Partial of `flap_mass` with respect to `wing_thickness_to_chord_root` as set by `HighLiftMass`, aviary/subsystems/mass/gasp_based/fixed.py:2066 -/
noncomputable def J_flap_mass__wing_thickness_to_chord_root (wing_num_flap_segments sea_level_density wing_high_lift_mass_coefficient wing_area wing_flap_chord_ratio wing_taper_ratio wing_flap_span_ratio design_wing_loading wing_thickness_to_chord_root wing_span fuselage_avg_diameter wing_center_chord landing_lift_coefficient_max : ℝ) : ℝ :=
  ((((wing_high_lift_mass_coefficient * (((vflap_2 sea_level_density design_wing_loading
    landing_lift_coefficient_max) / 100) ^ ((119 / 50) : ℝ))) * ((119 / 100) * ((sflap_2
    wing_area wing_flap_chord_ratio wing_taper_ratio wing_flap_span_ratio
    wing_thickness_to_chord_root wing_span fuselage_avg_diameter wing_center_chord) ^ ((19 /
    100) : ℝ)))) * (dsflap_dbtsr wing_area wing_flap_chord_ratio wing_taper_ratio
    wing_thickness_to_chord_root wing_span fuselage_avg_diameter wing_center_chord)) *
    (dbtsr_dtcrr wing_thickness_to_chord_root wing_span fuselage_avg_diameter
    wing_center_chord)) / (wing_num_flap_segments ^ ((119 / 200) : ℝ))

/-- Partial of `flap_mass` with respect to `wing_center_chord` as set by `HighLiftMass`, aviary/subsystems/mass/gasp_based/fixed.py:2076 -/
noncomputable def J_flap_mass__wing_center_chord (wing_num_flap_segments sea_level_density wing_high_lift_mass_coefficient wing_area wing_flap_chord_ratio wing_taper_ratio wing_flap_span_ratio design_wing_loading wing_thickness_to_chord_root wing_span fuselage_avg_diameter wing_center_chord landing_lift_coefficient_max : ℝ) : ℝ :=
  ((((wing_high_lift_mass_coefficient * (((vflap_2 sea_level_density design_wing_loading
    landing_lift_coefficient_max) / 100) ^ ((119 / 50) : ℝ))) * ((119 / 100) * ((sflap_2
    wing_area wing_flap_chord_ratio wing_taper_ratio wing_flap_span_ratio
    wing_thickness_to_chord_root wing_span fuselage_avg_diameter wing_center_chord) ^ ((19 /
    100) : ℝ)))) * (dsflap_dbtsr wing_area wing_flap_chord_ratio wing_taper_ratio
    wing_thickness_to_chord_root wing_span fuselage_avg_diameter wing_center_chord)) *
    (dbtsr_dcc wing_thickness_to_chord_root wing_span fuselage_avg_diameter wing_center_chord))
    / (wing_num_flap_segments ^ ((119 / 200) : ℝ))

/-- Partial of `flap_mass` with respect to `fuselage_avg_diameter` as set by `HighLiftMass`, aviary/subsystems/mass/gasp_based/fixed.py:2085 -/
noncomputable def J_flap_mass__fuselage_avg_diameter (wing_num_flap_segments sea_level_density wing_high_lift_mass_coefficient wing_area wing_flap_chord_ratio wing_taper_ratio wing_flap_span_ratio design_wing_loading wing_thickness_to_chord_root wing_span fuselage_avg_diameter wing_center_chord landing_lift_coefficient_max : ℝ) : ℝ :=
  ((((wing_high_lift_mass_coefficient * (((vflap_2 sea_level_density design_wing_loading
    landing_lift_coefficient_max) / 100) ^ ((119 / 50) : ℝ))) * ((119 / 100) * ((sflap_2
    wing_area wing_flap_chord_ratio wing_taper_ratio wing_flap_span_ratio
    wing_thickness_to_chord_root wing_span fuselage_avg_diameter wing_center_chord) ^ ((19 /
    100) : ℝ)))) * (dsflap_dbtsr wing_area wing_flap_chord_ratio wing_taper_ratio
    wing_thickness_to_chord_root wing_span fuselage_avg_diameter wing_center_chord)) *
    (dbtsr_dcw wing_thickness_to_chord_root wing_span fuselage_avg_diameter wing_center_chord))
    / (wing_num_flap_segments ^ ((119 / 200) : ℝ))

/-- Partial of `wing_high_lift_mass` with respect to `wing_high_lift_mass_coefficient` as set by `HighLiftMass`, aviary/subsystems/mass/gasp_based/fixed.py:2095 -/
noncomputable def J_wing_high_lift_mass__wing_high_lift_mass_coefficient (wing_num_flap_segments sea_level_density wing_area wing_flap_chord_ratio wing_taper_ratio wing_flap_span_ratio design_wing_loading wing_thickness_to_chord_root wing_span fuselage_avg_diameter wing_center_chord landing_lift_coefficient_max : ℝ) : ℝ :=
  ((((vflap_2 sea_level_density design_wing_loading landing_lift_coefficient_max) / 100) ^ ((119
    / 50) : ℝ)) * ((sflap_2 wing_area wing_flap_chord_ratio wing_taper_ratio
    wing_flap_span_ratio wing_thickness_to_chord_root wing_span fuselage_avg_diameter
    wing_center_chord) ^ ((119 / 100) : ℝ))) / (wing_num_flap_segments ^ ((119 / 200) : ℝ))

/-- Partial of `wing_high_lift_mass` with respect to `design_wing_loading` as set by `HighLiftMass`, aviary/subsystems/mass/gasp_based/fixed.py:2099 -/
noncomputable def J_wing_high_lift_mass__design_wing_loading (wing_num_flap_segments sea_level_density wing_high_lift_mass_coefficient wing_area wing_flap_chord_ratio wing_taper_ratio wing_flap_span_ratio design_wing_loading wing_thickness_to_chord_root wing_span fuselage_avg_diameter wing_center_chord landing_lift_coefficient_max : ℝ) : ℝ :=
  (((wing_high_lift_mass_coefficient * (((119 / 50) * ((vflap_2 sea_level_density
    design_wing_loading landing_lift_coefficient_max) ^ ((69 / 50) : ℝ))) / (100 ^ ((119 / 50) :
    ℝ)))) * (dvflap_dwl sea_level_density design_wing_loading landing_lift_coefficient_max)) *
    ((sflap_2 wing_area wing_flap_chord_ratio wing_taper_ratio wing_flap_span_ratio
    wing_thickness_to_chord_root wing_span fuselage_avg_diameter wing_center_chord) ^ ((119 /
    100) : ℝ))) / (wing_num_flap_segments ^ ((119 / 200) : ℝ))

/-- Partial of `wing_high_lift_mass` with respect to `landing_lift_coefficient_max` as set by `HighLiftMass`, aviary/subsystems/mass/gasp_based/fixed.py:2102 -/
noncomputable def J_wing_high_lift_mass__landing_lift_coefficient_max (wing_num_flap_segments sea_level_density wing_high_lift_mass_coefficient wing_area wing_flap_chord_ratio wing_taper_ratio wing_flap_span_ratio design_wing_loading wing_thickness_to_chord_root wing_span fuselage_avg_diameter wing_center_chord landing_lift_coefficient_max : ℝ) : ℝ :=
  (((wing_high_lift_mass_coefficient * (((119 / 50) * ((vflap_2 sea_level_density
    design_wing_loading landing_lift_coefficient_max) ^ ((69 / 50) : ℝ))) / (100 ^ ((119 / 50) :
    ℝ)))) * (dvflap_dcmfl sea_level_density design_wing_loading landing_lift_coefficient_max)) *
    ((sflap_2 wing_area wing_flap_chord_ratio wing_taper_ratio wing_flap_span_ratio
    wing_thickness_to_chord_root wing_span fuselage_avg_diameter wing_center_chord) ^ ((119 /
    100) : ℝ))) / (wing_num_flap_segments ^ ((119 / 200) : ℝ))

/-- Partial of `wing_high_lift_mass` with respect to `wing_flap_chord_ratio` as set by `HighLiftMass`, aviary/subsystems/mass/gasp_based/fixed.py:2106 -/
noncomputable def J_wing_high_lift_mass__wing_flap_chord_ratio (wing_num_flap_segments sea_level_density wing_high_lift_mass_coefficient wing_area wing_flap_chord_ratio wing_taper_ratio wing_flap_span_ratio design_wing_loading wing_thickness_to_chord_root wing_span fuselage_avg_diameter wing_center_chord landing_lift_coefficient_max : ℝ) : ℝ :=
  (((wing_high_lift_mass_coefficient * (((vflap_2 sea_level_density design_wing_loading
    landing_lift_coefficient_max) / 100) ^ ((119 / 50) : ℝ))) * ((119 / 100) * ((sflap_2
    wing_area wing_flap_chord_ratio wing_taper_ratio wing_flap_span_ratio
    wing_thickness_to_chord_root wing_span fuselage_avg_diameter wing_center_chord) ^ ((19 /
    100) : ℝ)))) * (dsflap_dfcr wing_area wing_taper_ratio wing_flap_span_ratio
    wing_thickness_to_chord_root wing_span fuselage_avg_diameter wing_center_chord)) /
    (wing_num_flap_segments ^ ((119 / 200) : ℝ))

/-- Partial of `wing_high_lift_mass` with respect to `wing_slat_chord_ratio` as set by `HighLiftMass`, aviary/subsystems/mass/gasp_based/fixed.py:2110 -/
noncomputable def J_wing_high_lift_mass__wing_slat_chord_ratio (wing_area wing_slat_chord_ratio wing_taper_ratio wing_slat_span_ratio wing_thickness_to_chord_root wing_span fuselage_avg_diameter wing_center_chord : ℝ) : ℝ :=
  ((4633 / 1250) * ((sle_2 wing_area wing_slat_chord_ratio wing_taper_ratio wing_slat_span_ratio
    wing_thickness_to_chord_root wing_span fuselage_avg_diameter wing_center_chord) ^ ((13 /
    100) : ℝ))) * (dsle_dscr wing_area wing_taper_ratio wing_slat_span_ratio
    wing_thickness_to_chord_root wing_span fuselage_avg_diameter wing_center_chord)

/-- Partial of `wing_high_lift_mass` with respect to `wing_area` as set by `HighLiftMass`, aviary/subsystems/mass/gasp_based/fixed.py:2114 -/
noncomputable def J_wing_high_lift_mass__wing_area (wing_num_flap_segments sea_level_density wing_high_lift_mass_coefficient wing_area wing_slat_chord_ratio wing_flap_chord_ratio wing_taper_ratio wing_flap_span_ratio wing_slat_span_ratio design_wing_loading wing_thickness_to_chord_root wing_span fuselage_avg_diameter wing_center_chord landing_lift_coefficient_max : ℝ) : ℝ :=
  ((((wing_high_lift_mass_coefficient * (((vflap_2 sea_level_density design_wing_loading
    landing_lift_coefficient_max) / 100) ^ ((119 / 50) : ℝ))) * ((119 / 100) * ((sflap_2
    wing_area wing_flap_chord_ratio wing_taper_ratio wing_flap_span_ratio
    wing_thickness_to_chord_root wing_span fuselage_avg_diameter wing_center_chord) ^ ((19 /
    100) : ℝ)))) * (dsflap_dwa wing_flap_chord_ratio wing_taper_ratio wing_flap_span_ratio
    wing_thickness_to_chord_root wing_span fuselage_avg_diameter wing_center_chord)) /
    (wing_num_flap_segments ^ ((119 / 200) : ℝ))) + (((4633 / 1250) * ((sle_2 wing_area
    wing_slat_chord_ratio wing_taper_ratio wing_slat_span_ratio wing_thickness_to_chord_root
    wing_span fuselage_avg_diameter wing_center_chord) ^ ((13 / 100) : ℝ))) * (dsle_dwa
    wing_slat_chord_ratio wing_taper_ratio wing_slat_span_ratio wing_thickness_to_chord_root
    wing_span fuselage_avg_diameter wing_center_chord))

/-- Partial of `wing_high_lift_mass` with respect to `wing_flap_span_ratio` as set by `HighLiftMass`, aviary/subsystems/mass/gasp_based/fixed.py:2118 -/
noncomputable def J_wing_high_lift_mass__wing_flap_span_ratio (wing_num_flap_segments sea_level_density wing_high_lift_mass_coefficient wing_area wing_flap_chord_ratio wing_taper_ratio wing_flap_span_ratio design_wing_loading wing_thickness_to_chord_root wing_span fuselage_avg_diameter wing_center_chord landing_lift_coefficient_max : ℝ) : ℝ :=
  (((wing_high_lift_mass_coefficient * (((vflap_2 sea_level_density design_wing_loading
    landing_lift_coefficient_max) / 100) ^ ((119 / 50) : ℝ))) * ((119 / 100) * ((sflap_2
    wing_area wing_flap_chord_ratio wing_taper_ratio wing_flap_span_ratio
    wing_thickness_to_chord_root wing_span fuselage_avg_diameter wing_center_chord) ^ ((19 /
    100) : ℝ)))) * (dsflap_dfsr wing_area wing_flap_chord_ratio wing_taper_ratio
    wing_flap_span_ratio)) / (wing_num_flap_segments ^ ((119 / 200) : ℝ))

/-- Partial of `wing_high_lift_mass` with respect to `wing_slat_span_ratio` as set by `HighLiftMass`, aviary/subsystems/mass/gasp_based/fixed.py:2122 -/
noncomputable def J_wing_high_lift_mass__wing_slat_span_ratio (wing_area wing_slat_chord_ratio wing_taper_ratio wing_slat_span_ratio wing_thickness_to_chord_root wing_span fuselage_avg_diameter wing_center_chord : ℝ) : ℝ :=
  ((4633 / 1250) * ((sle_2 wing_area wing_slat_chord_ratio wing_taper_ratio wing_slat_span_ratio
    wing_thickness_to_chord_root wing_span fuselage_avg_diameter wing_center_chord) ^ ((13 /
    100) : ℝ))) * (dsle_dssr wing_area wing_slat_chord_ratio wing_taper_ratio
    wing_thickness_to_chord_root wing_span fuselage_avg_diameter wing_center_chord)

/-- Partial of `wing_high_lift_mass` with respect to `wing_taper_ratio` as set by `HighLiftMass`, aviary/subsystems/mass/gasp_based/fixed.py:2126 -/
noncomputable def J_wing_high_lift_mass__wing_taper_ratio (wing_num_flap_segments sea_level_density wing_high_lift_mass_coefficient wing_area wing_slat_chord_ratio wing_flap_chord_ratio wing_taper_ratio wing_flap_span_ratio wing_slat_span_ratio design_wing_loading wing_thickness_to_chord_root wing_span fuselage_avg_diameter wing_center_chord landing_lift_coefficient_max : ℝ) : ℝ :=
  ((((wing_high_lift_mass_coefficient * (((vflap_2 sea_level_density design_wing_loading
    landing_lift_coefficient_max) / 100) ^ ((119 / 50) : ℝ))) * ((119 / 100) * ((sflap_2
    wing_area wing_flap_chord_ratio wing_taper_ratio wing_flap_span_ratio
    wing_thickness_to_chord_root wing_span fuselage_avg_diameter wing_center_chord) ^ ((19 /
    100) : ℝ)))) * (dsflap_dtr wing_area wing_flap_chord_ratio wing_taper_ratio
    wing_flap_span_ratio wing_thickness_to_chord_root wing_span fuselage_avg_diameter
    wing_center_chord)) / (wing_num_flap_segments ^ ((119 / 200) : ℝ))) + (((4633 / 1250) *
    ((sle_2 wing_area wing_slat_chord_ratio wing_taper_ratio wing_slat_span_ratio
    wing_thickness_to_chord_root wing_span fuselage_avg_diameter wing_center_chord) ^ ((13 /
    100) : ℝ))) * (dsle_dtr wing_area wing_slat_chord_ratio wing_taper_ratio
    wing_slat_span_ratio wing_thickness_to_chord_root wing_span fuselage_avg_diameter
    wing_center_chord))

/-- Partial of `wing_high_lift_mass` with respect to `wing_span` as set by `HighLiftMass`, aviary/subsystems/mass/gasp_based/fixed.py:2130 -/
noncomputable def J_wing_high_lift_mass__wing_span (wing_num_flap_segments sea_level_density wing_high_lift_mass_coefficient wing_area wing_slat_chord_ratio wing_flap_chord_ratio wing_taper_ratio wing_flap_span_ratio wing_slat_span_ratio design_wing_loading wing_thickness_to_chord_root wing_span fuselage_avg_diameter wing_center_chord landing_lift_coefficient_max : ℝ) : ℝ :=
  (((((wing_high_lift_mass_coefficient * (((vflap_2 sea_level_density design_wing_loading
    landing_lift_coefficient_max) / 100) ^ ((119 / 50) : ℝ))) * ((119 / 100) * ((sflap_2
    wing_area wing_flap_chord_ratio wing_taper_ratio wing_flap_span_ratio
    wing_thickness_to_chord_root wing_span fuselage_avg_diameter wing_center_chord) ^ ((19 /
    100) : ℝ)))) * (dsflap_dbtsr wing_area wing_flap_chord_ratio wing_taper_ratio
    wing_thickness_to_chord_root wing_span fuselage_avg_diameter wing_center_chord)) *
    (dbtsr_dwingspan wing_thickness_to_chord_root wing_span fuselage_avg_diameter
    wing_center_chord)) / (wing_num_flap_segments ^ ((119 / 200) : ℝ))) + ((((4633 / 1250) *
    ((sle_2 wing_area wing_slat_chord_ratio wing_taper_ratio wing_slat_span_ratio
    wing_thickness_to_chord_root wing_span fuselage_avg_diameter wing_center_chord) ^ ((13 /
    100) : ℝ))) * (dsle_dbtsr wing_area wing_slat_chord_ratio wing_taper_ratio
    wing_slat_span_ratio)) * (dbtsr_dwingspan wing_thickness_to_chord_root wing_span
    fuselage_avg_diameter wing_center_chord))

/-- Partial of `wing_high_lift_mass` with respect to `wing_thickness_to_chord_root` as set by `HighLiftMass`, aviary/subsystems/mass/gasp_based/fixed.py:2134 -/
noncomputable def J_wing_high_lift_mass__wing_thickness_to_chord_root (wing_num_flap_segments sea_level_density wing_high_lift_mass_coefficient wing_area wing_slat_chord_ratio wing_flap_chord_ratio wing_taper_ratio wing_flap_span_ratio wing_slat_span_ratio design_wing_loading wing_thickness_to_chord_root wing_span fuselage_avg_diameter wing_center_chord landing_lift_coefficient_max : ℝ) : ℝ :=
  (((((wing_high_lift_mass_coefficient * (((vflap_2 sea_level_density design_wing_loading
    landing_lift_coefficient_max) / 100) ^ ((119 / 50) : ℝ))) * ((119 / 100) * ((sflap_2
    wing_area wing_flap_chord_ratio wing_taper_ratio wing_flap_span_ratio
    wing_thickness_to_chord_root wing_span fuselage_avg_diameter wing_center_chord) ^ ((19 /
    100) : ℝ)))) * (dsflap_dbtsr wing_area wing_flap_chord_ratio wing_taper_ratio
    wing_thickness_to_chord_root wing_span fuselage_avg_diameter wing_center_chord)) *
    (dbtsr_dtcrr wing_thickness_to_chord_root wing_span fuselage_avg_diameter
    wing_center_chord)) / (wing_num_flap_segments ^ ((119 / 200) : ℝ))) + ((((4633 / 1250) *
    ((sle_2 wing_area wing_slat_chord_ratio wing_taper_ratio wing_slat_span_ratio
    wing_thickness_to_chord_root wing_span fuselage_avg_diameter wing_center_chord) ^ ((13 /
    100) : ℝ))) * (dsle_dbtsr wing_area wing_slat_chord_ratio wing_taper_ratio
    wing_slat_span_ratio)) * (dbtsr_dtcrr wing_thickness_to_chord_root wing_span
    fuselage_avg_diameter wing_center_chord))

/-- Partial of `wing_high_lift_mass` with respect to `wing_center_chord` as set by `HighLiftMass`, aviary/subsystems/mass/gasp_based/fixed.py:2139 -/
noncomputable def J_wing_high_lift_mass__wing_center_chord (wing_num_flap_segments sea_level_density wing_high_lift_mass_coefficient wing_area wing_slat_chord_ratio wing_flap_chord_ratio wing_taper_ratio wing_flap_span_ratio wing_slat_span_ratio design_wing_loading wing_thickness_to_chord_root wing_span fuselage_avg_diameter wing_center_chord landing_lift_coefficient_max : ℝ) : ℝ :=
  (((((wing_high_lift_mass_coefficient * (((vflap_2 sea_level_density design_wing_loading
    landing_lift_coefficient_max) / 100) ^ ((119 / 50) : ℝ))) * ((119 / 100) * ((sflap_2
    wing_area wing_flap_chord_ratio wing_taper_ratio wing_flap_span_ratio
    wing_thickness_to_chord_root wing_span fuselage_avg_diameter wing_center_chord) ^ ((19 /
    100) : ℝ)))) * (dsflap_dbtsr wing_area wing_flap_chord_ratio wing_taper_ratio
    wing_thickness_to_chord_root wing_span fuselage_avg_diameter wing_center_chord)) *
    (dbtsr_dcc wing_thickness_to_chord_root wing_span fuselage_avg_diameter wing_center_chord))
    / (wing_num_flap_segments ^ ((119 / 200) : ℝ))) + ((((4633 / 1250) * ((sle_2 wing_area
    wing_slat_chord_ratio wing_taper_ratio wing_slat_span_ratio wing_thickness_to_chord_root
    wing_span fuselage_avg_diameter wing_center_chord) ^ ((13 / 100) : ℝ))) * (dsle_dbtsr
    wing_area wing_slat_chord_ratio wing_taper_ratio wing_slat_span_ratio)) * (dbtsr_dcc
    wing_thickness_to_chord_root wing_span fuselage_avg_diameter wing_center_chord))

/-- Partial of `wing_high_lift_mass` with respect to `fuselage_avg_diameter` as set by `HighLiftMass`, aviary/subsystems/mass/gasp_based/fixed.py:2143 -/
noncomputable def J_wing_high_lift_mass__fuselage_avg_diameter (wing_num_flap_segments sea_level_density wing_high_lift_mass_coefficient wing_area wing_slat_chord_ratio wing_flap_chord_ratio wing_taper_ratio wing_flap_span_ratio wing_slat_span_ratio design_wing_loading wing_thickness_to_chord_root wing_span fuselage_avg_diameter wing_center_chord landing_lift_coefficient_max : ℝ) : ℝ :=
  (((((wing_high_lift_mass_coefficient * (((vflap_2 sea_level_density design_wing_loading
    landing_lift_coefficient_max) / 100) ^ ((119 / 50) : ℝ))) * ((119 / 100) * ((sflap_2
    wing_area wing_flap_chord_ratio wing_taper_ratio wing_flap_span_ratio
    wing_thickness_to_chord_root wing_span fuselage_avg_diameter wing_center_chord) ^ ((19 /
    100) : ℝ)))) * (dsflap_dbtsr wing_area wing_flap_chord_ratio wing_taper_ratio
    wing_thickness_to_chord_root wing_span fuselage_avg_diameter wing_center_chord)) *
    (dbtsr_dcw wing_thickness_to_chord_root wing_span fuselage_avg_diameter wing_center_chord))
    / (wing_num_flap_segments ^ ((119 / 200) : ℝ))) + ((((4633 / 1250) * ((sle_2 wing_area
    wing_slat_chord_ratio wing_taper_ratio wing_slat_span_ratio wing_thickness_to_chord_root
    wing_span fuselage_avg_diameter wing_center_chord) ^ ((13 / 100) : ℝ))) * (dsle_dbtsr
    wing_area wing_slat_chord_ratio wing_taper_ratio wing_slat_span_ratio)) * (dbtsr_dcw
    wing_thickness_to_chord_root wing_span fuselage_avg_diameter wing_center_chord))

theorem d_slat_mass__wing_area (wing_area wing_slat_chord_ratio wing_taper_ratio
    wing_slat_span_ratio wing_thickness_to_chord_root wing_span fuselage_avg_diameter
    wing_center_chord : ℝ) (h0 : 0 < wing_taper_ratio) (h1 : 0 < wing_thickness_to_chord_root) (h2
    : 0 < wing_center_chord) (h3 : 0 < fuselage_avg_diameter - (wing_thickness_to_chord_root *
    wing_center_chord)) (h4 : 0 < wing_span) (h5 : 0 < wing_slat_chord_ratio) (h6 : 0 < wing_area)
    (h7 : 0 < wing_slat_span_ratio) (h8 : 0 < 2 - ((1 - wing_taper_ratio) * ((99 / 100) + (((2 *
    (sqrt ((wing_thickness_to_chord_root * wing_center_chord) * (fuselage_avg_diameter -
    (wing_thickness_to_chord_root * wing_center_chord))))) + (2 / 5)) / wing_span)))) (h9 : 0 < 2
    - ((1 - wing_taper_ratio) * ((99 / 100) + (((2 * (sqrt ((wing_thickness_to_chord_root *
    wing_center_chord) * (fuselage_avg_diameter - (wing_thickness_to_chord_root *
    wing_center_chord))))) + (2 / 5)) / wing_span)))) :
    HasDerivAt (fun t => out_slat_mass t wing_slat_chord_ratio wing_taper_ratio wing_slat_span_ratio wing_thickness_to_chord_root wing_span fuselage_avg_diameter wing_center_chord) (J_slat_mass__wing_area wing_area wing_slat_chord_ratio wing_taper_ratio wing_slat_span_ratio wing_thickness_to_chord_root wing_span fuselage_avg_diameter wing_center_chord) wing_area := by
  have hf8 : 0 < 2 - ((1 - wing_taper_ratio) * ((99 / 100) + (body_to_span_ratio wing_thickness_to_chord_root wing_span fuselage_avg_diameter wing_center_chord))) := by simp only [dsle_dwa, sle_2, body_to_span_ratio_2, u1, wled, sle, body_to_span_ratio]; exact h8
  have hf9 : 0 < 2 - ((1 - wing_taper_ratio) * ((99 / 100) + (body_to_span_ratio_2 wing_thickness_to_chord_root wing_span fuselage_avg_diameter wing_center_chord))) := by simp only [dsle_dwa, sle_2, body_to_span_ratio_2, u1, wled, sle, body_to_span_ratio]; exact h9
  have hp0 : 0 < sle wing_area wing_slat_chord_ratio wing_taper_ratio wing_slat_span_ratio wing_thickness_to_chord_root wing_span fuselage_avg_diameter wing_center_chord := by simp only [dsle_dwa, sle_2, body_to_span_ratio_2, u1, wled, sle, body_to_span_ratio]; comp_side
  have hp1 : 0 < sle_2 wing_area wing_slat_chord_ratio wing_taper_ratio wing_slat_span_ratio wing_thickness_to_chord_root wing_span fuselage_avg_diameter wing_center_chord := by simp only [dsle_dwa, sle_2, body_to_span_ratio_2, u1, wled, sle, body_to_span_ratio]; comp_side
  have hp2 : 0 < u1 wing_thickness_to_chord_root fuselage_avg_diameter wing_center_chord := by simp only [dsle_dwa, sle_2, body_to_span_ratio_2, u1, wled, sle, body_to_span_ratio]; comp_side
  have e0 : ∀ x : ℝ, 0 < x → x ^ ((113 / 100) : ℝ) = x ^ ((13 / 100) : ℝ) * x ^ 1 := fun x hx => rpow_up hx 1 (by norm_num)
  obtain ⟨D_sle, hD_sle, k_sle⟩ : ∃ D : ℝ, D = ((wing_slat_chord_ratio / (1 + wing_taper_ratio)) * wing_slat_span_ratio) * (2 - ((1 - wing_taper_ratio) * ((99 / 100) + (body_to_span_ratio wing_thickness_to_chord_root wing_span fuselage_avg_diameter wing_center_chord)))) ∧
      HasDerivAt (fun t => sle t wing_slat_chord_ratio wing_taper_ratio wing_slat_span_ratio wing_thickness_to_chord_root wing_span fuselage_avg_diameter wing_center_chord) D wing_area := by
    refine ⟨_, rfl, ?_⟩
    simp only [sle]
    apply hasDerivAt_of_eq; on_goal 1 => (repeat' comp_step)
    all_goals try first | comp_side | (apply HasDerivAt.continuousAt; (repeat' comp_step); all_goals comp_side)
    all_goals try simp (disch := first | assumption | positivity) only [e0, div_mul_eq_div_div, div_half, inv_half]
    all_goals try simp only [mul_zero, zero_mul, add_zero, zero_add, sub_zero, zero_sub, mul_one, one_mul, sub_self]
    all_goals try push_cast
    all_goals comp_eq
  obtain ⟨D_wled, hD_wled, k_wled⟩ : ∃ D : ℝ, D = (82 / 25) * (((113 / 100) * ((sle wing_area wing_slat_chord_ratio wing_taper_ratio wing_slat_span_ratio wing_thickness_to_chord_root wing_span fuselage_avg_diameter wing_center_chord) ^ ((13 / 100) : ℝ))) * D_sle) ∧
      HasDerivAt (fun t => wled t wing_slat_chord_ratio wing_taper_ratio wing_slat_span_ratio wing_thickness_to_chord_root wing_span fuselage_avg_diameter wing_center_chord) D wing_area := by
    refine ⟨_, rfl, ?_⟩
    simp only [wled]
    apply hasDerivAt_of_eq; on_goal 1 => (repeat' comp_step)
    all_goals try first | comp_side | (apply HasDerivAt.continuousAt; (repeat' comp_step); all_goals comp_side)
    all_goals try simp (disch := first | assumption | positivity) only [e0, div_mul_eq_div_div, div_half, inv_half]
    all_goals try simp only [mul_zero, zero_mul, add_zero, zero_add, sub_zero, zero_sub, mul_one, one_mul, sub_self]
    all_goals try push_cast
    all_goals comp_eq
  have al_sle_2 : sle_2 wing_area wing_slat_chord_ratio wing_taper_ratio wing_slat_span_ratio wing_thickness_to_chord_root wing_span fuselage_avg_diameter wing_center_chord = sle wing_area wing_slat_chord_ratio wing_taper_ratio wing_slat_span_ratio wing_thickness_to_chord_root wing_span fuselage_avg_diameter wing_center_chord := rfl
  have al_body_to_span_ratio_2 : body_to_span_ratio_2 wing_thickness_to_chord_root wing_span fuselage_avg_diameter wing_center_chord = body_to_span_ratio wing_thickness_to_chord_root wing_span fuselage_avg_diameter wing_center_chord := rfl
  try simp only [out_slat_mass, J_slat_mass__wing_area, dsle_dwa, u1, al_sle_2, al_body_to_span_ratio_2]
  all_goals (apply hasDerivAt_of_eq; on_goal 1 => (repeat' comp_step))
  all_goals try first | comp_side | (apply HasDerivAt.continuousAt; (repeat' comp_step); all_goals comp_side)
  all_goals try simp only [hD_sle, hD_wled]
  all_goals try simp (disch := first | assumption | positivity) only [e0, div_mul_eq_div_div, div_half, inv_half]
  all_goals try simp only [mul_zero, zero_mul, add_zero, zero_add, sub_zero, zero_sub, mul_one, one_mul, sub_self]
  all_goals try push_cast
  all_goals comp_eq

theorem d_slat_mass__wing_slat_chord_ratio (wing_area wing_slat_chord_ratio wing_taper_ratio
    wing_slat_span_ratio wing_thickness_to_chord_root wing_span fuselage_avg_diameter
    wing_center_chord : ℝ) (h0 : 0 < wing_taper_ratio) (h1 : 0 < wing_thickness_to_chord_root) (h2
    : 0 < wing_center_chord) (h3 : 0 < fuselage_avg_diameter - (wing_thickness_to_chord_root *
    wing_center_chord)) (h4 : 0 < wing_span) (h5 : 0 < wing_slat_chord_ratio) (h6 : 0 < wing_area)
    (h7 : 0 < wing_slat_span_ratio) (h8 : 0 < 2 - ((1 - wing_taper_ratio) * ((99 / 100) + (((2 *
    (sqrt ((wing_thickness_to_chord_root * wing_center_chord) * (fuselage_avg_diameter -
    (wing_thickness_to_chord_root * wing_center_chord))))) + (2 / 5)) / wing_span)))) (h9 : 0 < 2
    - ((1 - wing_taper_ratio) * ((99 / 100) + (((2 * (sqrt ((wing_thickness_to_chord_root *
    wing_center_chord) * (fuselage_avg_diameter - (wing_thickness_to_chord_root *
    wing_center_chord))))) + (2 / 5)) / wing_span)))) :
    HasDerivAt (fun t => out_slat_mass wing_area t wing_taper_ratio wing_slat_span_ratio wing_thickness_to_chord_root wing_span fuselage_avg_diameter wing_center_chord) (J_slat_mass__wing_slat_chord_ratio wing_area wing_slat_chord_ratio wing_taper_ratio wing_slat_span_ratio wing_thickness_to_chord_root wing_span fuselage_avg_diameter wing_center_chord) wing_slat_chord_ratio := by
  have hf8 : 0 < 2 - ((1 - wing_taper_ratio) * ((99 / 100) + (body_to_span_ratio wing_thickness_to_chord_root wing_span fuselage_avg_diameter wing_center_chord))) := by simp only [dsle_dscr, sle_2, body_to_span_ratio_2, u1, wled, sle, body_to_span_ratio]; exact h8
  have hf9 : 0 < 2 - ((1 - wing_taper_ratio) * ((99 / 100) + (body_to_span_ratio_2 wing_thickness_to_chord_root wing_span fuselage_avg_diameter wing_center_chord))) := by simp only [dsle_dscr, sle_2, body_to_span_ratio_2, u1, wled, sle, body_to_span_ratio]; exact h9
  have hp0 : 0 < sle wing_area wing_slat_chord_ratio wing_taper_ratio wing_slat_span_ratio wing_thickness_to_chord_root wing_span fuselage_avg_diameter wing_center_chord := by simp only [dsle_dscr, sle_2, body_to_span_ratio_2, u1, wled, sle, body_to_span_ratio]; comp_side
  have hp1 : 0 < sle_2 wing_area wing_slat_chord_ratio wing_taper_ratio wing_slat_span_ratio wing_thickness_to_chord_root wing_span fuselage_avg_diameter wing_center_chord := by simp only [dsle_dscr, sle_2, body_to_span_ratio_2, u1, wled, sle, body_to_span_ratio]; comp_side
  have hp2 : 0 < u1 wing_thickness_to_chord_root fuselage_avg_diameter wing_center_chord := by simp only [dsle_dscr, sle_2, body_to_span_ratio_2, u1, wled, sle, body_to_span_ratio]; comp_side
  have e0 : ∀ x : ℝ, 0 < x → x ^ ((113 / 100) : ℝ) = x ^ ((13 / 100) : ℝ) * x ^ 1 := fun x hx => rpow_up hx 1 (by norm_num)
  obtain ⟨D_sle, hD_sle, k_sle⟩ : ∃ D : ℝ, D = ((wing_area / (1 + wing_taper_ratio)) * wing_slat_span_ratio) * (2 - ((1 - wing_taper_ratio) * ((99 / 100) + (body_to_span_ratio wing_thickness_to_chord_root wing_span fuselage_avg_diameter wing_center_chord)))) ∧
      HasDerivAt (fun t => sle wing_area t wing_taper_ratio wing_slat_span_ratio wing_thickness_to_chord_root wing_span fuselage_avg_diameter wing_center_chord) D wing_slat_chord_ratio := by
    refine ⟨_, rfl, ?_⟩
    simp only [sle]
    apply hasDerivAt_of_eq; on_goal 1 => (repeat' comp_step)
    all_goals try first | comp_side | (apply HasDerivAt.continuousAt; (repeat' comp_step); all_goals comp_side)
    all_goals try simp (disch := first | assumption | positivity) only [e0, div_mul_eq_div_div, div_half, inv_half]
    all_goals try simp only [mul_zero, zero_mul, add_zero, zero_add, sub_zero, zero_sub, mul_one, one_mul, sub_self]
    all_goals try push_cast
    all_goals comp_eq
  obtain ⟨D_wled, hD_wled, k_wled⟩ : ∃ D : ℝ, D = (82 / 25) * (((113 / 100) * ((sle wing_area wing_slat_chord_ratio wing_taper_ratio wing_slat_span_ratio wing_thickness_to_chord_root wing_span fuselage_avg_diameter wing_center_chord) ^ ((13 / 100) : ℝ))) * D_sle) ∧
      HasDerivAt (fun t => wled wing_area t wing_taper_ratio wing_slat_span_ratio wing_thickness_to_chord_root wing_span fuselage_avg_diameter wing_center_chord) D wing_slat_chord_ratio := by
    refine ⟨_, rfl, ?_⟩
    simp only [wled]
    apply hasDerivAt_of_eq; on_goal 1 => (repeat' comp_step)
    all_goals try first | comp_side | (apply HasDerivAt.continuousAt; (repeat' comp_step); all_goals comp_side)
    all_goals try simp (disch := first | assumption | positivity) only [e0, div_mul_eq_div_div, div_half, inv_half]
    all_goals try simp only [mul_zero, zero_mul, add_zero, zero_add, sub_zero, zero_sub, mul_one, one_mul, sub_self]
    all_goals try push_cast
    all_goals comp_eq
  have al_sle_2 : sle_2 wing_area wing_slat_chord_ratio wing_taper_ratio wing_slat_span_ratio wing_thickness_to_chord_root wing_span fuselage_avg_diameter wing_center_chord = sle wing_area wing_slat_chord_ratio wing_taper_ratio wing_slat_span_ratio wing_thickness_to_chord_root wing_span fuselage_avg_diameter wing_center_chord := rfl
  have al_body_to_span_ratio_2 : body_to_span_ratio_2 wing_thickness_to_chord_root wing_span fuselage_avg_diameter wing_center_chord = body_to_span_ratio wing_thickness_to_chord_root wing_span fuselage_avg_diameter wing_center_chord := rfl
  try simp only [out_slat_mass, J_slat_mass__wing_slat_chord_ratio, dsle_dscr, u1, al_sle_2, al_body_to_span_ratio_2]
  all_goals (apply hasDerivAt_of_eq; on_goal 1 => (repeat' comp_step))
  all_goals try first | comp_side | (apply HasDerivAt.continuousAt; (repeat' comp_step); all_goals comp_side)
  all_goals try simp only [hD_sle, hD_wled]
  all_goals try simp (disch := first | assumption | positivity) only [e0, div_mul_eq_div_div, div_half, inv_half]
  all_goals try simp only [mul_zero, zero_mul, add_zero, zero_add, sub_zero, zero_sub, mul_one, one_mul, sub_self]
  all_goals try push_cast
  all_goals comp_eq

theorem d_slat_mass__wing_taper_ratio (wing_area wing_slat_chord_ratio wing_taper_ratio
    wing_slat_span_ratio wing_thickness_to_chord_root wing_span fuselage_avg_diameter
    wing_center_chord : ℝ) (h0 : 0 < wing_taper_ratio) (h1 : 0 < wing_thickness_to_chord_root) (h2
    : 0 < wing_center_chord) (h3 : 0 < fuselage_avg_diameter - (wing_thickness_to_chord_root *
    wing_center_chord)) (h4 : 0 < wing_span) (h5 : 0 < wing_slat_chord_ratio) (h6 : 0 < wing_area)
    (h7 : 0 < wing_slat_span_ratio) (h8 : 0 < 2 - ((1 - wing_taper_ratio) * ((99 / 100) + (((2 *
    (sqrt ((wing_thickness_to_chord_root * wing_center_chord) * (fuselage_avg_diameter -
    (wing_thickness_to_chord_root * wing_center_chord))))) + (2 / 5)) / wing_span)))) (h9 : 0 < 2
    - ((1 - wing_taper_ratio) * ((99 / 100) + (((2 * (sqrt ((wing_thickness_to_chord_root *
    wing_center_chord) * (fuselage_avg_diameter - (wing_thickness_to_chord_root *
    wing_center_chord))))) + (2 / 5)) / wing_span)))) :
    HasDerivAt (fun t => out_slat_mass wing_area wing_slat_chord_ratio t wing_slat_span_ratio wing_thickness_to_chord_root wing_span fuselage_avg_diameter wing_center_chord) (J_slat_mass__wing_taper_ratio wing_area wing_slat_chord_ratio wing_taper_ratio wing_slat_span_ratio wing_thickness_to_chord_root wing_span fuselage_avg_diameter wing_center_chord) wing_taper_ratio := by
  have hf8 : 0 < 2 - ((1 - wing_taper_ratio) * ((99 / 100) + (body_to_span_ratio wing_thickness_to_chord_root wing_span fuselage_avg_diameter wing_center_chord))) := by simp only [dsle_dtr, sle_2, body_to_span_ratio_2, u1, wled, sle, body_to_span_ratio]; exact h8
  have hf9 : 0 < 2 - ((1 - wing_taper_ratio) * ((99 / 100) + (body_to_span_ratio_2 wing_thickness_to_chord_root wing_span fuselage_avg_diameter wing_center_chord))) := by simp only [dsle_dtr, sle_2, body_to_span_ratio_2, u1, wled, sle, body_to_span_ratio]; exact h9
  have hp0 : 0 < sle wing_area wing_slat_chord_ratio wing_taper_ratio wing_slat_span_ratio wing_thickness_to_chord_root wing_span fuselage_avg_diameter wing_center_chord := by simp only [dsle_dtr, sle_2, body_to_span_ratio_2, u1, wled, sle, body_to_span_ratio]; comp_side
  have hp1 : 0 < sle_2 wing_area wing_slat_chord_ratio wing_taper_ratio wing_slat_span_ratio wing_thickness_to_chord_root wing_span fuselage_avg_diameter wing_center_chord := by simp only [dsle_dtr, sle_2, body_to_span_ratio_2, u1, wled, sle, body_to_span_ratio]; comp_side
  have hp2 : 0 < u1 wing_thickness_to_chord_root fuselage_avg_diameter wing_center_chord := by simp only [dsle_dtr, sle_2, body_to_span_ratio_2, u1, wled, sle, body_to_span_ratio]; comp_side
  have e0 : ∀ x : ℝ, 0 < x → x ^ ((113 / 100) : ℝ) = x ^ ((13 / 100) : ℝ) * x ^ 1 := fun x hx => rpow_up hx 1 (by norm_num)
  obtain ⟨D_sle, hD_sle, k_sle⟩ : ∃ D : ℝ, D = (((-((wing_slat_chord_ratio * wing_area) / ((1 + wing_taper_ratio) ^ 2))) * wing_slat_span_ratio) * (2 - ((1 - wing_taper_ratio) * ((99 / 100) + (body_to_span_ratio wing_thickness_to_chord_root wing_span fuselage_avg_diameter wing_center_chord))))) + ((((wing_slat_chord_ratio * wing_area) / (1 + wing_taper_ratio)) * wing_slat_span_ratio) * (-((-1) * ((99 / 100) + (body_to_span_ratio wing_thickness_to_chord_root wing_span fuselage_avg_diameter wing_center_chord))))) ∧
      HasDerivAt (fun t => sle wing_area wing_slat_chord_ratio t wing_slat_span_ratio wing_thickness_to_chord_root wing_span fuselage_avg_diameter wing_center_chord) D wing_taper_ratio := by
    refine ⟨_, rfl, ?_⟩
    simp only [sle]
    apply hasDerivAt_of_eq; on_goal 1 => (repeat' comp_step)
    all_goals try first | comp_side | (apply HasDerivAt.continuousAt; (repeat' comp_step); all_goals comp_side)
    all_goals try simp (disch := first | assumption | positivity) only [e0, div_mul_eq_div_div, div_half, inv_half]
    all_goals try simp only [mul_zero, zero_mul, add_zero, zero_add, sub_zero, zero_sub, mul_one, one_mul, sub_self]
    all_goals try push_cast
    all_goals comp_eq
  obtain ⟨D_wled, hD_wled, k_wled⟩ : ∃ D : ℝ, D = (82 / 25) * (((113 / 100) * ((sle wing_area wing_slat_chord_ratio wing_taper_ratio wing_slat_span_ratio wing_thickness_to_chord_root wing_span fuselage_avg_diameter wing_center_chord) ^ ((13 / 100) : ℝ))) * D_sle) ∧
      HasDerivAt (fun t => wled wing_area wing_slat_chord_ratio t wing_slat_span_ratio wing_thickness_to_chord_root wing_span fuselage_avg_diameter wing_center_chord) D wing_taper_ratio := by
    refine ⟨_, rfl, ?_⟩
    simp only [wled]
    apply hasDerivAt_of_eq; on_goal 1 => (repeat' comp_step)
    all_goals try first | comp_side | (apply HasDerivAt.continuousAt; (repeat' comp_step); all_goals comp_side)
    all_goals try simp (disch := first | assumption | positivity) only [e0, div_mul_eq_div_div, div_half, inv_half]
    all_goals try simp only [mul_zero, zero_mul, add_zero, zero_add, sub_zero, zero_sub, mul_one, one_mul, sub_self]
    all_goals try push_cast
    all_goals comp_eq
  have al_sle_2 : sle_2 wing_area wing_slat_chord_ratio wing_taper_ratio wing_slat_span_ratio wing_thickness_to_chord_root wing_span fuselage_avg_diameter wing_center_chord = sle wing_area wing_slat_chord_ratio wing_taper_ratio wing_slat_span_ratio wing_thickness_to_chord_root wing_span fuselage_avg_diameter wing_center_chord := rfl
  have al_body_to_span_ratio_2 : body_to_span_ratio_2 wing_thickness_to_chord_root wing_span fuselage_avg_diameter wing_center_chord = body_to_span_ratio wing_thickness_to_chord_root wing_span fuselage_avg_diameter wing_center_chord := rfl
  try simp only [out_slat_mass, J_slat_mass__wing_taper_ratio, dsle_dtr, u1, al_sle_2, al_body_to_span_ratio_2]
  all_goals (apply hasDerivAt_of_eq; on_goal 1 => (repeat' comp_step))
  all_goals try first | comp_side | (apply HasDerivAt.continuousAt; (repeat' comp_step); all_goals comp_side)
  all_goals try simp only [hD_sle, hD_wled]
  all_goals try simp (disch := first | assumption | positivity) only [e0, div_mul_eq_div_div, div_half, inv_half]
  all_goals try simp only [mul_zero, zero_mul, add_zero, zero_add, sub_zero, zero_sub, mul_one, one_mul, sub_self]
  all_goals try push_cast
  all_goals comp_eq

theorem d_slat_mass__wing_slat_span_ratio (wing_area wing_slat_chord_ratio wing_taper_ratio
    wing_slat_span_ratio wing_thickness_to_chord_root wing_span fuselage_avg_diameter
    wing_center_chord : ℝ) (h0 : 0 < wing_taper_ratio) (h1 : 0 < wing_thickness_to_chord_root) (h2
    : 0 < wing_center_chord) (h3 : 0 < fuselage_avg_diameter - (wing_thickness_to_chord_root *
    wing_center_chord)) (h4 : 0 < wing_span) (h5 : 0 < wing_slat_chord_ratio) (h6 : 0 < wing_area)
    (h7 : 0 < wing_slat_span_ratio) (h8 : 0 < 2 - ((1 - wing_taper_ratio) * ((99 / 100) + (((2 *
    (sqrt ((wing_thickness_to_chord_root * wing_center_chord) * (fuselage_avg_diameter -
    (wing_thickness_to_chord_root * wing_center_chord))))) + (2 / 5)) / wing_span)))) (h9 : 0 < 2
    - ((1 - wing_taper_ratio) * ((99 / 100) + (((2 * (sqrt ((wing_thickness_to_chord_root *
    wing_center_chord) * (fuselage_avg_diameter - (wing_thickness_to_chord_root *
    wing_center_chord))))) + (2 / 5)) / wing_span)))) :
    HasDerivAt (fun t => out_slat_mass wing_area wing_slat_chord_ratio wing_taper_ratio t wing_thickness_to_chord_root wing_span fuselage_avg_diameter wing_center_chord) (J_slat_mass__wing_slat_span_ratio wing_area wing_slat_chord_ratio wing_taper_ratio wing_slat_span_ratio wing_thickness_to_chord_root wing_span fuselage_avg_diameter wing_center_chord) wing_slat_span_ratio := by
  have hf8 : 0 < 2 - ((1 - wing_taper_ratio) * ((99 / 100) + (body_to_span_ratio wing_thickness_to_chord_root wing_span fuselage_avg_diameter wing_center_chord))) := by simp only [dsle_dssr, sle_2, body_to_span_ratio_2, u1, wled, sle, body_to_span_ratio]; exact h8
  have hf9 : 0 < 2 - ((1 - wing_taper_ratio) * ((99 / 100) + (body_to_span_ratio_2 wing_thickness_to_chord_root wing_span fuselage_avg_diameter wing_center_chord))) := by simp only [dsle_dssr, sle_2, body_to_span_ratio_2, u1, wled, sle, body_to_span_ratio]; exact h9
  have hp0 : 0 < sle wing_area wing_slat_chord_ratio wing_taper_ratio wing_slat_span_ratio wing_thickness_to_chord_root wing_span fuselage_avg_diameter wing_center_chord := by simp only [dsle_dssr, sle_2, body_to_span_ratio_2, u1, wled, sle, body_to_span_ratio]; comp_side
  have hp1 : 0 < sle_2 wing_area wing_slat_chord_ratio wing_taper_ratio wing_slat_span_ratio wing_thickness_to_chord_root wing_span fuselage_avg_diameter wing_center_chord := by simp only [dsle_dssr, sle_2, body_to_span_ratio_2, u1, wled, sle, body_to_span_ratio]; comp_side
  have hp2 : 0 < u1 wing_thickness_to_chord_root fuselage_avg_diameter wing_center_chord := by simp only [dsle_dssr, sle_2, body_to_span_ratio_2, u1, wled, sle, body_to_span_ratio]; comp_side
  have e0 : ∀ x : ℝ, 0 < x → x ^ ((113 / 100) : ℝ) = x ^ ((13 / 100) : ℝ) * x ^ 1 := fun x hx => rpow_up hx 1 (by norm_num)
  obtain ⟨D_sle, hD_sle, k_sle⟩ : ∃ D : ℝ, D = ((wing_slat_chord_ratio * wing_area) / (1 + wing_taper_ratio)) * (2 - ((1 - wing_taper_ratio) * ((99 / 100) + (body_to_span_ratio wing_thickness_to_chord_root wing_span fuselage_avg_diameter wing_center_chord)))) ∧
      HasDerivAt (fun t => sle wing_area wing_slat_chord_ratio wing_taper_ratio t wing_thickness_to_chord_root wing_span fuselage_avg_diameter wing_center_chord) D wing_slat_span_ratio := by
    refine ⟨_, rfl, ?_⟩
    simp only [sle]
    apply hasDerivAt_of_eq; on_goal 1 => (repeat' comp_step)
    all_goals try first | comp_side | (apply HasDerivAt.continuousAt; (repeat' comp_step); all_goals comp_side)
    all_goals try simp (disch := first | assumption | positivity) only [e0, div_mul_eq_div_div, div_half, inv_half]
    all_goals try simp only [mul_zero, zero_mul, add_zero, zero_add, sub_zero, zero_sub, mul_one, one_mul, sub_self]
    all_goals try push_cast
    all_goals comp_eq
  obtain ⟨D_wled, hD_wled, k_wled⟩ : ∃ D : ℝ, D = (82 / 25) * (((113 / 100) * ((sle wing_area wing_slat_chord_ratio wing_taper_ratio wing_slat_span_ratio wing_thickness_to_chord_root wing_span fuselage_avg_diameter wing_center_chord) ^ ((13 / 100) : ℝ))) * D_sle) ∧
      HasDerivAt (fun t => wled wing_area wing_slat_chord_ratio wing_taper_ratio t wing_thickness_to_chord_root wing_span fuselage_avg_diameter wing_center_chord) D wing_slat_span_ratio := by
    refine ⟨_, rfl, ?_⟩
    simp only [wled]
    apply hasDerivAt_of_eq; on_goal 1 => (repeat' comp_step)
    all_goals try first | comp_side | (apply HasDerivAt.continuousAt; (repeat' comp_step); all_goals comp_side)
    all_goals try simp (disch := first | assumption | positivity) only [e0, div_mul_eq_div_div, div_half, inv_half]
    all_goals try simp only [mul_zero, zero_mul, add_zero, zero_add, sub_zero, zero_sub, mul_one, one_mul, sub_self]
    all_goals try push_cast
    all_goals comp_eq
  have al_sle_2 : sle_2 wing_area wing_slat_chord_ratio wing_taper_ratio wing_slat_span_ratio wing_thickness_to_chord_root wing_span fuselage_avg_diameter wing_center_chord = sle wing_area wing_slat_chord_ratio wing_taper_ratio wing_slat_span_ratio wing_thickness_to_chord_root wing_span fuselage_avg_diameter wing_center_chord := rfl
  have al_body_to_span_ratio_2 : body_to_span_ratio_2 wing_thickness_to_chord_root wing_span fuselage_avg_diameter wing_center_chord = body_to_span_ratio wing_thickness_to_chord_root wing_span fuselage_avg_diameter wing_center_chord := rfl
  try simp only [out_slat_mass, J_slat_mass__wing_slat_span_ratio, dsle_dssr, u1, al_sle_2, al_body_to_span_ratio_2]
  all_goals (apply hasDerivAt_of_eq; on_goal 1 => (repeat' comp_step))
  all_goals try first | comp_side | (apply HasDerivAt.continuousAt; (repeat' comp_step); all_goals comp_side)
  all_goals try simp only [hD_sle, hD_wled]
  all_goals try simp (disch := first | assumption | positivity) only [e0, div_mul_eq_div_div, div_half, inv_half]
  all_goals try simp only [mul_zero, zero_mul, add_zero, zero_add, sub_zero, zero_sub, mul_one, one_mul, sub_self]
  all_goals try push_cast
  all_goals comp_eq

theorem d_slat_mass__wing_span (wing_area wing_slat_chord_ratio wing_taper_ratio
    wing_slat_span_ratio wing_thickness_to_chord_root wing_span fuselage_avg_diameter
    wing_center_chord : ℝ) (h0 : 0 < wing_taper_ratio) (h1 : 0 < wing_thickness_to_chord_root) (h2
    : 0 < wing_center_chord) (h3 : 0 < fuselage_avg_diameter - (wing_thickness_to_chord_root *
    wing_center_chord)) (h4 : 0 < wing_span) (h5 : 0 < wing_slat_chord_ratio) (h6 : 0 < wing_area)
    (h7 : 0 < wing_slat_span_ratio) (h8 : 0 < 2 - ((1 - wing_taper_ratio) * ((99 / 100) + (((2 *
    (sqrt ((wing_thickness_to_chord_root * wing_center_chord) * (fuselage_avg_diameter -
    (wing_thickness_to_chord_root * wing_center_chord))))) + (2 / 5)) / wing_span)))) (h9 : 0 < 2
    - ((1 - wing_taper_ratio) * ((99 / 100) + (((2 * (sqrt ((wing_thickness_to_chord_root *
    wing_center_chord) * (fuselage_avg_diameter - (wing_thickness_to_chord_root *
    wing_center_chord))))) + (2 / 5)) / wing_span)))) :
    HasDerivAt (fun t => out_slat_mass wing_area wing_slat_chord_ratio wing_taper_ratio wing_slat_span_ratio wing_thickness_to_chord_root t fuselage_avg_diameter wing_center_chord) (J_slat_mass__wing_span wing_area wing_slat_chord_ratio wing_taper_ratio wing_slat_span_ratio wing_thickness_to_chord_root wing_span fuselage_avg_diameter wing_center_chord) wing_span := by
  have hf8 : 0 < 2 - ((1 - wing_taper_ratio) * ((99 / 100) + (body_to_span_ratio wing_thickness_to_chord_root wing_span fuselage_avg_diameter wing_center_chord))) := by simp only [dbtsr_dwingspan, dsle_dbtsr, sle_2, body_to_span_ratio_2, u1, wled, sle, body_to_span_ratio]; exact h8
  have hf9 : 0 < 2 - ((1 - wing_taper_ratio) * ((99 / 100) + (body_to_span_ratio_2 wing_thickness_to_chord_root wing_span fuselage_avg_diameter wing_center_chord))) := by simp only [dbtsr_dwingspan, dsle_dbtsr, sle_2, body_to_span_ratio_2, u1, wled, sle, body_to_span_ratio]; exact h9
  have hp0 : 0 < sle wing_area wing_slat_chord_ratio wing_taper_ratio wing_slat_span_ratio wing_thickness_to_chord_root wing_span fuselage_avg_diameter wing_center_chord := by simp only [dbtsr_dwingspan, dsle_dbtsr, sle_2, body_to_span_ratio_2, u1, wled, sle, body_to_span_ratio]; comp_side
  have hp1 : 0 < sle_2 wing_area wing_slat_chord_ratio wing_taper_ratio wing_slat_span_ratio wing_thickness_to_chord_root wing_span fuselage_avg_diameter wing_center_chord := by simp only [dbtsr_dwingspan, dsle_dbtsr, sle_2, body_to_span_ratio_2, u1, wled, sle, body_to_span_ratio]; comp_side
  have hp2 : 0 < u1 wing_thickness_to_chord_root fuselage_avg_diameter wing_center_chord := by simp only [dbtsr_dwingspan, dsle_dbtsr, sle_2, body_to_span_ratio_2, u1, wled, sle, body_to_span_ratio]; comp_side
  have e0 : ∀ x : ℝ, 0 < x → x ^ ((113 / 100) : ℝ) = x ^ ((13 / 100) : ℝ) * x ^ 1 := fun x hx => rpow_up hx 1 (by norm_num)
  obtain ⟨D_body_to_span_ratio, hD_body_to_span_ratio, k_body_to_span_ratio⟩ : ∃ D : ℝ, D = -(((2 * (sqrt ((wing_thickness_to_chord_root * wing_center_chord) * (fuselage_avg_diameter - (wing_thickness_to_chord_root * wing_center_chord))))) + (2 / 5)) / (wing_span ^ 2)) ∧
      HasDerivAt (fun t => body_to_span_ratio wing_thickness_to_chord_root t fuselage_avg_diameter wing_center_chord) D wing_span := by
    refine ⟨_, rfl, ?_⟩
    simp only [body_to_span_ratio, sqrt_eq_rpow]
    apply hasDerivAt_of_eq; on_goal 1 => (repeat' comp_step)
    all_goals try first | comp_side | (apply HasDerivAt.continuousAt; (repeat' comp_step); all_goals comp_side)
    all_goals try simp (disch := first | assumption | positivity) only [e0, div_mul_eq_div_div, div_half, inv_half]
    all_goals try simp only [mul_zero, zero_mul, add_zero, zero_add, sub_zero, zero_sub, mul_one, one_mul, sub_self]
    all_goals try push_cast
    all_goals comp_eq
  obtain ⟨D_sle, hD_sle, k_sle⟩ : ∃ D : ℝ, D = (((wing_slat_chord_ratio * wing_area) / (1 + wing_taper_ratio)) * wing_slat_span_ratio) * (-((1 - wing_taper_ratio) * D_body_to_span_ratio)) ∧
      HasDerivAt (fun t => sle wing_area wing_slat_chord_ratio wing_taper_ratio wing_slat_span_ratio wing_thickness_to_chord_root t fuselage_avg_diameter wing_center_chord) D wing_span := by
    refine ⟨_, rfl, ?_⟩
    simp only [sle]
    apply hasDerivAt_of_eq; on_goal 1 => (repeat' comp_step)
    all_goals try first | comp_side | (apply HasDerivAt.continuousAt; (repeat' comp_step); all_goals comp_side)
    all_goals try simp (disch := first | assumption | positivity) only [e0, div_mul_eq_div_div, div_half, inv_half]
    all_goals try simp only [mul_zero, zero_mul, add_zero, zero_add, sub_zero, zero_sub, mul_one, one_mul, sub_self]
    all_goals try push_cast
    all_goals comp_eq
  obtain ⟨D_wled, hD_wled, k_wled⟩ : ∃ D : ℝ, D = (82 / 25) * (((113 / 100) * ((sle wing_area wing_slat_chord_ratio wing_taper_ratio wing_slat_span_ratio wing_thickness_to_chord_root wing_span fuselage_avg_diameter wing_center_chord) ^ ((13 / 100) : ℝ))) * D_sle) ∧
      HasDerivAt (fun t => wled wing_area wing_slat_chord_ratio wing_taper_ratio wing_slat_span_ratio wing_thickness_to_chord_root t fuselage_avg_diameter wing_center_chord) D wing_span := by
    refine ⟨_, rfl, ?_⟩
    simp only [wled]
    apply hasDerivAt_of_eq; on_goal 1 => (repeat' comp_step)
    all_goals try first | comp_side | (apply HasDerivAt.continuousAt; (repeat' comp_step); all_goals comp_side)
    all_goals try simp (disch := first | assumption | positivity) only [e0, div_mul_eq_div_div, div_half, inv_half]
    all_goals try simp only [mul_zero, zero_mul, add_zero, zero_add, sub_zero, zero_sub, mul_one, one_mul, sub_self]
    all_goals try push_cast
    all_goals comp_eq
  have al_sle_2 : sle_2 wing_area wing_slat_chord_ratio wing_taper_ratio wing_slat_span_ratio wing_thickness_to_chord_root wing_span fuselage_avg_diameter wing_center_chord = sle wing_area wing_slat_chord_ratio wing_taper_ratio wing_slat_span_ratio wing_thickness_to_chord_root wing_span fuselage_avg_diameter wing_center_chord := rfl
  have al_body_to_span_ratio_2 : body_to_span_ratio_2 wing_thickness_to_chord_root wing_span fuselage_avg_diameter wing_center_chord = body_to_span_ratio wing_thickness_to_chord_root wing_span fuselage_avg_diameter wing_center_chord := rfl
  try simp only [out_slat_mass, J_slat_mass__wing_span, dbtsr_dwingspan, dsle_dbtsr, u1, al_sle_2, al_body_to_span_ratio_2]
  all_goals (apply hasDerivAt_of_eq; on_goal 1 => (repeat' comp_step))
  all_goals try first | comp_side | (apply HasDerivAt.continuousAt; (repeat' comp_step); all_goals comp_side)
  all_goals try simp only [hD_body_to_span_ratio, hD_sle, hD_wled]
  all_goals try simp only [dbtsr_dwingspan, dsle_dbtsr, sle_2, body_to_span_ratio_2, u1, wled, sle, body_to_span_ratio]
  all_goals try simp (disch := first | assumption | positivity) only [e0, div_mul_eq_div_div, div_half, inv_half]
  all_goals try simp only [mul_zero, zero_mul, add_zero, zero_add, sub_zero, zero_sub, mul_one, one_mul, sub_self]
  all_goals try push_cast
  all_goals comp_eq

theorem d_flap_mass__wing_high_lift_mass_coefficient (wing_num_flap_segments sea_level_density
    wing_high_lift_mass_coefficient wing_area wing_flap_chord_ratio wing_taper_ratio
    wing_flap_span_ratio design_wing_loading wing_thickness_to_chord_root wing_span
    fuselage_avg_diameter wing_center_chord landing_lift_coefficient_max : ℝ) (h0 : 0 <
    sea_level_density) (h1 : 0 < landing_lift_coefficient_max) (h2 : 0 < design_wing_loading) (h3
    : 0 < wing_taper_ratio) (h4 : 0 < wing_thickness_to_chord_root) (h5 : 0 < wing_center_chord)
    (h6 : 0 < fuselage_avg_diameter - (wing_thickness_to_chord_root * wing_center_chord)) (h7 : 0
    < wing_span) (h8 : 0 < wing_flap_chord_ratio) (h9 : 0 < wing_area) (h10 : 0 <
    wing_flap_span_ratio - (((2 * (sqrt ((wing_thickness_to_chord_root * wing_center_chord) *
    (fuselage_avg_diameter - (wing_thickness_to_chord_root * wing_center_chord))))) + (2 / 5)) /
    wing_span)) (h11 : 0 < 2 - ((1 - wing_taper_ratio) * (wing_flap_span_ratio + (((2 * (sqrt
    ((wing_thickness_to_chord_root * wing_center_chord) * (fuselage_avg_diameter -
    (wing_thickness_to_chord_root * wing_center_chord))))) + (2 / 5)) / wing_span)))) (h12 : 0 <
    wing_num_flap_segments) (h13 : 0 < wing_flap_span_ratio - (((2 * (sqrt
    ((wing_thickness_to_chord_root * wing_center_chord) * (fuselage_avg_diameter -
    (wing_thickness_to_chord_root * wing_center_chord))))) + (2 / 5)) / wing_span)) (h14 : 0 < 2 -
    ((1 - wing_taper_ratio) * (wing_flap_span_ratio + (((2 * (sqrt ((wing_thickness_to_chord_root
    * wing_center_chord) * (fuselage_avg_diameter - (wing_thickness_to_chord_root *
    wing_center_chord))))) + (2 / 5)) / wing_span)))) :
    HasDerivAt (fun t => out_flap_mass wing_num_flap_segments sea_level_density t wing_area wing_flap_chord_ratio wing_taper_ratio wing_flap_span_ratio design_wing_loading wing_thickness_to_chord_root wing_span fuselage_avg_diameter wing_center_chord landing_lift_coefficient_max) (J_flap_mass__wing_high_lift_mass_coefficient wing_num_flap_segments sea_level_density wing_area wing_flap_chord_ratio wing_taper_ratio wing_flap_span_ratio design_wing_loading wing_thickness_to_chord_root wing_span fuselage_avg_diameter wing_center_chord landing_lift_coefficient_max) wing_high_lift_mass_coefficient := by
  have e0 : ∀ x : ℝ, 0 < x → x ^ ((119 / 100) : ℝ) = x ^ ((19 / 100) : ℝ) * x ^ 1 := fun x hx => rpow_up hx 1 (by norm_num)
  have e1 : ∀ x : ℝ, 0 < x → x ^ ((119 / 50) : ℝ) = x ^ ((19 / 50) : ℝ) * x ^ 2 := fun x hx => rpow_up hx 2 (by norm_num)
  simp only [out_flap_mass, J_flap_mass__wing_high_lift_mass_coefficient, sflap_2, body_to_span_ratio_2, u1, vflap_2, u2, sflap, body_to_span_ratio, vflap, vstall, sqrt_eq_rpow]
  (apply hasDerivAt_of_eq; on_goal 1 => (repeat' comp_step))
  all_goals try comp_side
  all_goals try simp (disch := first | assumption | positivity) only [e0, e1, div_mul_eq_div_div, div_half, inv_half]
  all_goals try simp only [mul_zero, zero_mul, add_zero, zero_add, sub_zero, zero_sub, mul_one, one_mul]
  all_goals try push_cast
  all_goals comp_eq

theorem d_flap_mass__wing_area (wing_num_flap_segments sea_level_density
    wing_high_lift_mass_coefficient wing_area wing_flap_chord_ratio wing_taper_ratio
    wing_flap_span_ratio design_wing_loading wing_thickness_to_chord_root wing_span
    fuselage_avg_diameter wing_center_chord landing_lift_coefficient_max : ℝ) (h0 : 0 <
    sea_level_density) (h1 : 0 < landing_lift_coefficient_max) (h2 : 0 < design_wing_loading) (h3
    : 0 < wing_taper_ratio) (h4 : 0 < wing_thickness_to_chord_root) (h5 : 0 < wing_center_chord)
    (h6 : 0 < fuselage_avg_diameter - (wing_thickness_to_chord_root * wing_center_chord)) (h7 : 0
    < wing_span) (h8 : 0 < wing_flap_chord_ratio) (h9 : 0 < wing_area) (h10 : 0 <
    wing_flap_span_ratio - (((2 * (sqrt ((wing_thickness_to_chord_root * wing_center_chord) *
    (fuselage_avg_diameter - (wing_thickness_to_chord_root * wing_center_chord))))) + (2 / 5)) /
    wing_span)) (h11 : 0 < 2 - ((1 - wing_taper_ratio) * (wing_flap_span_ratio + (((2 * (sqrt
    ((wing_thickness_to_chord_root * wing_center_chord) * (fuselage_avg_diameter -
    (wing_thickness_to_chord_root * wing_center_chord))))) + (2 / 5)) / wing_span)))) (h12 : 0 <
    wing_num_flap_segments) (h13 : 0 < wing_flap_span_ratio - (((2 * (sqrt
    ((wing_thickness_to_chord_root * wing_center_chord) * (fuselage_avg_diameter -
    (wing_thickness_to_chord_root * wing_center_chord))))) + (2 / 5)) / wing_span)) (h14 : 0 < 2 -
    ((1 - wing_taper_ratio) * (wing_flap_span_ratio + (((2 * (sqrt ((wing_thickness_to_chord_root
    * wing_center_chord) * (fuselage_avg_diameter - (wing_thickness_to_chord_root *
    wing_center_chord))))) + (2 / 5)) / wing_span)))) :
    HasDerivAt (fun t => out_flap_mass wing_num_flap_segments sea_level_density wing_high_lift_mass_coefficient t wing_flap_chord_ratio wing_taper_ratio wing_flap_span_ratio design_wing_loading wing_thickness_to_chord_root wing_span fuselage_avg_diameter wing_center_chord landing_lift_coefficient_max) (J_flap_mass__wing_area wing_num_flap_segments sea_level_density wing_high_lift_mass_coefficient wing_area wing_flap_chord_ratio wing_taper_ratio wing_flap_span_ratio design_wing_loading wing_thickness_to_chord_root wing_span fuselage_avg_diameter wing_center_chord landing_lift_coefficient_max) wing_area := by
  have hf10 : 0 < wing_flap_span_ratio - (body_to_span_ratio wing_thickness_to_chord_root wing_span fuselage_avg_diameter wing_center_chord) := by simp only [dsflap_dwa, sflap_2, body_to_span_ratio_2, u1, vflap_2, u2, sflap, body_to_span_ratio, vflap, vstall]; exact h10
  have hf11 : 0 < 2 - ((1 - wing_taper_ratio) * (wing_flap_span_ratio + (body_to_span_ratio wing_thickness_to_chord_root wing_span fuselage_avg_diameter wing_center_chord))) := by simp only [dsflap_dwa, sflap_2, body_to_span_ratio_2, u1, vflap_2, u2, sflap, body_to_span_ratio, vflap, vstall]; exact h11
  have hf13 : 0 < wing_flap_span_ratio - (body_to_span_ratio_2 wing_thickness_to_chord_root wing_span fuselage_avg_diameter wing_center_chord) := by simp only [dsflap_dwa, sflap_2, body_to_span_ratio_2, u1, vflap_2, u2, sflap, body_to_span_ratio, vflap, vstall]; exact h13
  have hf14 : 0 < 2 - ((1 - wing_taper_ratio) * (wing_flap_span_ratio + (body_to_span_ratio_2 wing_thickness_to_chord_root wing_span fuselage_avg_diameter wing_center_chord))) := by simp only [dsflap_dwa, sflap_2, body_to_span_ratio_2, u1, vflap_2, u2, sflap, body_to_span_ratio, vflap, vstall]; exact h14
  have hp0 : 0 < vflap sea_level_density design_wing_loading landing_lift_coefficient_max := by simp only [dsflap_dwa, sflap_2, body_to_span_ratio_2, u1, vflap_2, u2, sflap, body_to_span_ratio, vflap, vstall]; comp_side
  have hp1 : 0 < sflap wing_area wing_flap_chord_ratio wing_taper_ratio wing_flap_span_ratio wing_thickness_to_chord_root wing_span fuselage_avg_diameter wing_center_chord := by simp only [dsflap_dwa, sflap_2, body_to_span_ratio_2, u1, vflap_2, u2, sflap, body_to_span_ratio, vflap, vstall]; comp_side
  have hp2 : 0 < vflap_2 sea_level_density design_wing_loading landing_lift_coefficient_max := by simp only [dsflap_dwa, sflap_2, body_to_span_ratio_2, u1, vflap_2, u2, sflap, body_to_span_ratio, vflap, vstall]; comp_side
  have hp3 : 0 < sflap_2 wing_area wing_flap_chord_ratio wing_taper_ratio wing_flap_span_ratio wing_thickness_to_chord_root wing_span fuselage_avg_diameter wing_center_chord := by simp only [dsflap_dwa, sflap_2, body_to_span_ratio_2, u1, vflap_2, u2, sflap, body_to_span_ratio, vflap, vstall]; comp_side
  have hp4 : 0 < u2 sea_level_density design_wing_loading landing_lift_coefficient_max := by simp only [dsflap_dwa, sflap_2, body_to_span_ratio_2, u1, vflap_2, u2, sflap, body_to_span_ratio, vflap, vstall]; comp_side
  have hp5 : 0 < u1 wing_thickness_to_chord_root fuselage_avg_diameter wing_center_chord := by simp only [dsflap_dwa, sflap_2, body_to_span_ratio_2, u1, vflap_2, u2, sflap, body_to_span_ratio, vflap, vstall]; comp_side
  have e0 : ∀ x : ℝ, 0 < x → x ^ ((119 / 100) : ℝ) = x ^ ((19 / 100) : ℝ) * x ^ 1 := fun x hx => rpow_up hx 1 (by norm_num)
  have e1 : ∀ x : ℝ, 0 < x → x ^ ((119 / 50) : ℝ) = x ^ ((19 / 50) : ℝ) * x ^ 2 := fun x hx => rpow_up hx 2 (by norm_num)
  obtain ⟨D_sflap, hD_sflap, k_sflap⟩ : ∃ D : ℝ, D = ((wing_flap_chord_ratio / (1 + wing_taper_ratio)) * (wing_flap_span_ratio - (body_to_span_ratio wing_thickness_to_chord_root wing_span fuselage_avg_diameter wing_center_chord))) * (2 - ((1 - wing_taper_ratio) * (wing_flap_span_ratio + (body_to_span_ratio wing_thickness_to_chord_root wing_span fuselage_avg_diameter wing_center_chord)))) ∧
      HasDerivAt (fun t => sflap t wing_flap_chord_ratio wing_taper_ratio wing_flap_span_ratio wing_thickness_to_chord_root wing_span fuselage_avg_diameter wing_center_chord) D wing_area := by
    refine ⟨_, rfl, ?_⟩
    simp only [sflap]
    apply hasDerivAt_of_eq; on_goal 1 => (repeat' comp_step)
    all_goals try first | comp_side | (apply HasDerivAt.continuousAt; (repeat' comp_step); all_goals comp_side)
    all_goals try simp (disch := first | assumption | positivity) only [e0, e1, div_mul_eq_div_div, div_half, inv_half]
    all_goals try simp only [mul_zero, zero_mul, add_zero, zero_add, sub_zero, zero_sub, mul_one, one_mul, sub_self]
    all_goals try push_cast
    all_goals comp_eq
  have al_sflap_2 : sflap_2 wing_area wing_flap_chord_ratio wing_taper_ratio wing_flap_span_ratio wing_thickness_to_chord_root wing_span fuselage_avg_diameter wing_center_chord = sflap wing_area wing_flap_chord_ratio wing_taper_ratio wing_flap_span_ratio wing_thickness_to_chord_root wing_span fuselage_avg_diameter wing_center_chord := rfl
  have al_body_to_span_ratio_2 : body_to_span_ratio_2 wing_thickness_to_chord_root wing_span fuselage_avg_diameter wing_center_chord = body_to_span_ratio wing_thickness_to_chord_root wing_span fuselage_avg_diameter wing_center_chord := rfl
  have al_vflap_2 : vflap_2 sea_level_density design_wing_loading landing_lift_coefficient_max = vflap sea_level_density design_wing_loading landing_lift_coefficient_max := rfl
  try simp only [out_flap_mass, J_flap_mass__wing_area, dsflap_dwa, u1, u2, al_sflap_2, al_body_to_span_ratio_2, al_vflap_2]
  all_goals (apply hasDerivAt_of_eq; on_goal 1 => (repeat' comp_step))
  all_goals try first | comp_side | (apply HasDerivAt.continuousAt; (repeat' comp_step); all_goals comp_side)
  all_goals try simp only [hD_sflap]
  all_goals try simp (disch := first | assumption | positivity) only [e0, e1, div_mul_eq_div_div, div_half, inv_half]
  all_goals try simp only [mul_zero, zero_mul, add_zero, zero_add, sub_zero, zero_sub, mul_one, one_mul, sub_self]
  all_goals try push_cast
  all_goals comp_eq

theorem d_flap_mass__wing_flap_chord_ratio (wing_num_flap_segments sea_level_density
    wing_high_lift_mass_coefficient wing_area wing_flap_chord_ratio wing_taper_ratio
    wing_flap_span_ratio design_wing_loading wing_thickness_to_chord_root wing_span
    fuselage_avg_diameter wing_center_chord landing_lift_coefficient_max : ℝ) (h0 : 0 <
    sea_level_density) (h1 : 0 < landing_lift_coefficient_max) (h2 : 0 < design_wing_loading) (h3
    : 0 < wing_taper_ratio) (h4 : 0 < wing_thickness_to_chord_root) (h5 : 0 < wing_center_chord)
    (h6 : 0 < fuselage_avg_diameter - (wing_thickness_to_chord_root * wing_center_chord)) (h7 : 0
    < wing_span) (h8 : 0 < wing_flap_chord_ratio) (h9 : 0 < wing_area) (h10 : 0 <
    wing_flap_span_ratio - (((2 * (sqrt ((wing_thickness_to_chord_root * wing_center_chord) *
    (fuselage_avg_diameter - (wing_thickness_to_chord_root * wing_center_chord))))) + (2 / 5)) /
    wing_span)) (h11 : 0 < 2 - ((1 - wing_taper_ratio) * (wing_flap_span_ratio + (((2 * (sqrt
    ((wing_thickness_to_chord_root * wing_center_chord) * (fuselage_avg_diameter -
    (wing_thickness_to_chord_root * wing_center_chord))))) + (2 / 5)) / wing_span)))) (h12 : 0 <
    wing_num_flap_segments) (h13 : 0 < wing_flap_span_ratio - (((2 * (sqrt
    ((wing_thickness_to_chord_root * wing_center_chord) * (fuselage_avg_diameter -
    (wing_thickness_to_chord_root * wing_center_chord))))) + (2 / 5)) / wing_span)) (h14 : 0 < 2 -
    ((1 - wing_taper_ratio) * (wing_flap_span_ratio + (((2 * (sqrt ((wing_thickness_to_chord_root
    * wing_center_chord) * (fuselage_avg_diameter - (wing_thickness_to_chord_root *
    wing_center_chord))))) + (2 / 5)) / wing_span)))) :
    HasDerivAt (fun t => out_flap_mass wing_num_flap_segments sea_level_density wing_high_lift_mass_coefficient wing_area t wing_taper_ratio wing_flap_span_ratio design_wing_loading wing_thickness_to_chord_root wing_span fuselage_avg_diameter wing_center_chord landing_lift_coefficient_max) (J_flap_mass__wing_flap_chord_ratio wing_num_flap_segments sea_level_density wing_high_lift_mass_coefficient wing_area wing_flap_chord_ratio wing_taper_ratio wing_flap_span_ratio design_wing_loading wing_thickness_to_chord_root wing_span fuselage_avg_diameter wing_center_chord landing_lift_coefficient_max) wing_flap_chord_ratio := by
  have hf10 : 0 < wing_flap_span_ratio - (body_to_span_ratio wing_thickness_to_chord_root wing_span fuselage_avg_diameter wing_center_chord) := by simp only [dsflap_dfcr, sflap_2, body_to_span_ratio_2, u1, vflap_2, u2, sflap, body_to_span_ratio, vflap, vstall]; exact h10
  have hf11 : 0 < 2 - ((1 - wing_taper_ratio) * (wing_flap_span_ratio + (body_to_span_ratio wing_thickness_to_chord_root wing_span fuselage_avg_diameter wing_center_chord))) := by simp only [dsflap_dfcr, sflap_2, body_to_span_ratio_2, u1, vflap_2, u2, sflap, body_to_span_ratio, vflap, vstall]; exact h11
  have hf13 : 0 < wing_flap_span_ratio - (body_to_span_ratio_2 wing_thickness_to_chord_root wing_span fuselage_avg_diameter wing_center_chord) := by simp only [dsflap_dfcr, sflap_2, body_to_span_ratio_2, u1, vflap_2, u2, sflap, body_to_span_ratio, vflap, vstall]; exact h13
  have hf14 : 0 < 2 - ((1 - wing_taper_ratio) * (wing_flap_span_ratio + (body_to_span_ratio_2 wing_thickness_to_chord_root wing_span fuselage_avg_diameter wing_center_chord))) := by simp only [dsflap_dfcr, sflap_2, body_to_span_ratio_2, u1, vflap_2, u2, sflap, body_to_span_ratio, vflap, vstall]; exact h14
  have hp0 : 0 < vflap sea_level_density design_wing_loading landing_lift_coefficient_max := by simp only [dsflap_dfcr, sflap_2, body_to_span_ratio_2, u1, vflap_2, u2, sflap, body_to_span_ratio, vflap, vstall]; comp_side
  have hp1 : 0 < sflap wing_area wing_flap_chord_ratio wing_taper_ratio wing_flap_span_ratio wing_thickness_to_chord_root wing_span fuselage_avg_diameter wing_center_chord := by simp only [dsflap_dfcr, sflap_2, body_to_span_ratio_2, u1, vflap_2, u2, sflap, body_to_span_ratio, vflap, vstall]; comp_side
  have hp2 : 0 < vflap_2 sea_level_density design_wing_loading landing_lift_coefficient_max := by simp only [dsflap_dfcr, sflap_2, body_to_span_ratio_2, u1, vflap_2, u2, sflap, body_to_span_ratio, vflap, vstall]; comp_side
  have hp3 : 0 < sflap_2 wing_area wing_flap_chord_ratio wing_taper_ratio wing_flap_span_ratio wing_thickness_to_chord_root wing_span fuselage_avg_diameter wing_center_chord := by simp only [dsflap_dfcr, sflap_2, body_to_span_ratio_2, u1, vflap_2, u2, sflap, body_to_span_ratio, vflap, vstall]; comp_side
  have hp4 : 0 < u2 sea_level_density design_wing_loading landing_lift_coefficient_max := by simp only [dsflap_dfcr, sflap_2, body_to_span_ratio_2, u1, vflap_2, u2, sflap, body_to_span_ratio, vflap, vstall]; comp_side
  have hp5 : 0 < u1 wing_thickness_to_chord_root fuselage_avg_diameter wing_center_chord := by simp only [dsflap_dfcr, sflap_2, body_to_span_ratio_2, u1, vflap_2, u2, sflap, body_to_span_ratio, vflap, vstall]; comp_side
  have e0 : ∀ x : ℝ, 0 < x → x ^ ((119 / 100) : ℝ) = x ^ ((19 / 100) : ℝ) * x ^ 1 := fun x hx => rpow_up hx 1 (by norm_num)
  have e1 : ∀ x : ℝ, 0 < x → x ^ ((119 / 50) : ℝ) = x ^ ((19 / 50) : ℝ) * x ^ 2 := fun x hx => rpow_up hx 2 (by norm_num)
  obtain ⟨D_sflap, hD_sflap, k_sflap⟩ : ∃ D : ℝ, D = ((wing_area / (1 + wing_taper_ratio)) * (wing_flap_span_ratio - (body_to_span_ratio wing_thickness_to_chord_root wing_span fuselage_avg_diameter wing_center_chord))) * (2 - ((1 - wing_taper_ratio) * (wing_flap_span_ratio + (body_to_span_ratio wing_thickness_to_chord_root wing_span fuselage_avg_diameter wing_center_chord)))) ∧
      HasDerivAt (fun t => sflap wing_area t wing_taper_ratio wing_flap_span_ratio wing_thickness_to_chord_root wing_span fuselage_avg_diameter wing_center_chord) D wing_flap_chord_ratio := by
    refine ⟨_, rfl, ?_⟩
    simp only [sflap]
    apply hasDerivAt_of_eq; on_goal 1 => (repeat' comp_step)
    all_goals try first | comp_side | (apply HasDerivAt.continuousAt; (repeat' comp_step); all_goals comp_side)
    all_goals try simp (disch := first | assumption | positivity) only [e0, e1, div_mul_eq_div_div, div_half, inv_half]
    all_goals try simp only [mul_zero, zero_mul, add_zero, zero_add, sub_zero, zero_sub, mul_one, one_mul, sub_self]
    all_goals try push_cast
    all_goals comp_eq
  have al_sflap_2 : sflap_2 wing_area wing_flap_chord_ratio wing_taper_ratio wing_flap_span_ratio wing_thickness_to_chord_root wing_span fuselage_avg_diameter wing_center_chord = sflap wing_area wing_flap_chord_ratio wing_taper_ratio wing_flap_span_ratio wing_thickness_to_chord_root wing_span fuselage_avg_diameter wing_center_chord := rfl
  have al_body_to_span_ratio_2 : body_to_span_ratio_2 wing_thickness_to_chord_root wing_span fuselage_avg_diameter wing_center_chord = body_to_span_ratio wing_thickness_to_chord_root wing_span fuselage_avg_diameter wing_center_chord := rfl
  have al_vflap_2 : vflap_2 sea_level_density design_wing_loading landing_lift_coefficient_max = vflap sea_level_density design_wing_loading landing_lift_coefficient_max := rfl
  try simp only [out_flap_mass, J_flap_mass__wing_flap_chord_ratio, dsflap_dfcr, u1, u2, al_sflap_2, al_body_to_span_ratio_2, al_vflap_2]
  all_goals (apply hasDerivAt_of_eq; on_goal 1 => (repeat' comp_step))
  all_goals try first | comp_side | (apply HasDerivAt.continuousAt; (repeat' comp_step); all_goals comp_side)
  all_goals try simp only [hD_sflap]
  all_goals try simp (disch := first | assumption | positivity) only [e0, e1, div_mul_eq_div_div, div_half, inv_half]
  all_goals try simp only [mul_zero, zero_mul, add_zero, zero_add, sub_zero, zero_sub, mul_one, one_mul, sub_self]
  all_goals try push_cast
  all_goals comp_eq

theorem d_flap_mass__wing_taper_ratio (wing_num_flap_segments sea_level_density
    wing_high_lift_mass_coefficient wing_area wing_flap_chord_ratio wing_taper_ratio
    wing_flap_span_ratio design_wing_loading wing_thickness_to_chord_root wing_span
    fuselage_avg_diameter wing_center_chord landing_lift_coefficient_max : ℝ) (h0 : 0 <
    sea_level_density) (h1 : 0 < landing_lift_coefficient_max) (h2 : 0 < design_wing_loading) (h3
    : 0 < wing_taper_ratio) (h4 : 0 < wing_thickness_to_chord_root) (h5 : 0 < wing_center_chord)
    (h6 : 0 < fuselage_avg_diameter - (wing_thickness_to_chord_root * wing_center_chord)) (h7 : 0
    < wing_span) (h8 : 0 < wing_flap_chord_ratio) (h9 : 0 < wing_area) (h10 : 0 <
    wing_flap_span_ratio - (((2 * (sqrt ((wing_thickness_to_chord_root * wing_center_chord) *
    (fuselage_avg_diameter - (wing_thickness_to_chord_root * wing_center_chord))))) + (2 / 5)) /
    wing_span)) (h11 : 0 < 2 - ((1 - wing_taper_ratio) * (wing_flap_span_ratio + (((2 * (sqrt
    ((wing_thickness_to_chord_root * wing_center_chord) * (fuselage_avg_diameter -
    (wing_thickness_to_chord_root * wing_center_chord))))) + (2 / 5)) / wing_span)))) (h12 : 0 <
    wing_num_flap_segments) (h13 : 0 < wing_flap_span_ratio - (((2 * (sqrt
    ((wing_thickness_to_chord_root * wing_center_chord) * (fuselage_avg_diameter -
    (wing_thickness_to_chord_root * wing_center_chord))))) + (2 / 5)) / wing_span)) (h14 : 0 < 2 -
    ((1 - wing_taper_ratio) * (wing_flap_span_ratio + (((2 * (sqrt ((wing_thickness_to_chord_root
    * wing_center_chord) * (fuselage_avg_diameter - (wing_thickness_to_chord_root *
    wing_center_chord))))) + (2 / 5)) / wing_span)))) :
    HasDerivAt (fun t => out_flap_mass wing_num_flap_segments sea_level_density wing_high_lift_mass_coefficient wing_area wing_flap_chord_ratio t wing_flap_span_ratio design_wing_loading wing_thickness_to_chord_root wing_span fuselage_avg_diameter wing_center_chord landing_lift_coefficient_max) (J_flap_mass__wing_taper_ratio wing_num_flap_segments sea_level_density wing_high_lift_mass_coefficient wing_area wing_flap_chord_ratio wing_taper_ratio wing_flap_span_ratio design_wing_loading wing_thickness_to_chord_root wing_span fuselage_avg_diameter wing_center_chord landing_lift_coefficient_max) wing_taper_ratio := by
  have hf10 : 0 < wing_flap_span_ratio - (body_to_span_ratio wing_thickness_to_chord_root wing_span fuselage_avg_diameter wing_center_chord) := by simp only [dsflap_dtr, sflap_2, body_to_span_ratio_2, u1, vflap_2, u2, sflap, body_to_span_ratio, vflap, vstall]; exact h10
  have hf11 : 0 < 2 - ((1 - wing_taper_ratio) * (wing_flap_span_ratio + (body_to_span_ratio wing_thickness_to_chord_root wing_span fuselage_avg_diameter wing_center_chord))) := by simp only [dsflap_dtr, sflap_2, body_to_span_ratio_2, u1, vflap_2, u2, sflap, body_to_span_ratio, vflap, vstall]; exact h11
  have hf13 : 0 < wing_flap_span_ratio - (body_to_span_ratio_2 wing_thickness_to_chord_root wing_span fuselage_avg_diameter wing_center_chord) := by simp only [dsflap_dtr, sflap_2, body_to_span_ratio_2, u1, vflap_2, u2, sflap, body_to_span_ratio, vflap, vstall]; exact h13
  have hf14 : 0 < 2 - ((1 - wing_taper_ratio) * (wing_flap_span_ratio + (body_to_span_ratio_2 wing_thickness_to_chord_root wing_span fuselage_avg_diameter wing_center_chord))) := by simp only [dsflap_dtr, sflap_2, body_to_span_ratio_2, u1, vflap_2, u2, sflap, body_to_span_ratio, vflap, vstall]; exact h14
  have hp0 : 0 < vflap sea_level_density design_wing_loading landing_lift_coefficient_max := by simp only [dsflap_dtr, sflap_2, body_to_span_ratio_2, u1, vflap_2, u2, sflap, body_to_span_ratio, vflap, vstall]; comp_side
  have hp1 : 0 < sflap wing_area wing_flap_chord_ratio wing_taper_ratio wing_flap_span_ratio wing_thickness_to_chord_root wing_span fuselage_avg_diameter wing_center_chord := by simp only [dsflap_dtr, sflap_2, body_to_span_ratio_2, u1, vflap_2, u2, sflap, body_to_span_ratio, vflap, vstall]; comp_side
  have hp2 : 0 < vflap_2 sea_level_density design_wing_loading landing_lift_coefficient_max := by simp only [dsflap_dtr, sflap_2, body_to_span_ratio_2, u1, vflap_2, u2, sflap, body_to_span_ratio, vflap, vstall]; comp_side
  have hp3 : 0 < sflap_2 wing_area wing_flap_chord_ratio wing_taper_ratio wing_flap_span_ratio wing_thickness_to_chord_root wing_span fuselage_avg_diameter wing_center_chord := by simp only [dsflap_dtr, sflap_2, body_to_span_ratio_2, u1, vflap_2, u2, sflap, body_to_span_ratio, vflap, vstall]; comp_side
  have hp4 : 0 < u2 sea_level_density design_wing_loading landing_lift_coefficient_max := by simp only [dsflap_dtr, sflap_2, body_to_span_ratio_2, u1, vflap_2, u2, sflap, body_to_span_ratio, vflap, vstall]; comp_side
  have hp5 : 0 < u1 wing_thickness_to_chord_root fuselage_avg_diameter wing_center_chord := by simp only [dsflap_dtr, sflap_2, body_to_span_ratio_2, u1, vflap_2, u2, sflap, body_to_span_ratio, vflap, vstall]; comp_side
  have e0 : ∀ x : ℝ, 0 < x → x ^ ((119 / 100) : ℝ) = x ^ ((19 / 100) : ℝ) * x ^ 1 := fun x hx => rpow_up hx 1 (by norm_num)
  have e1 : ∀ x : ℝ, 0 < x → x ^ ((119 / 50) : ℝ) = x ^ ((19 / 50) : ℝ) * x ^ 2 := fun x hx => rpow_up hx 2 (by norm_num)
  obtain ⟨D_sflap, hD_sflap, k_sflap⟩ : ∃ D : ℝ, D = (((-((wing_flap_chord_ratio * wing_area) / ((1 + wing_taper_ratio) ^ 2))) * (wing_flap_span_ratio - (body_to_span_ratio wing_thickness_to_chord_root wing_span fuselage_avg_diameter wing_center_chord))) * (2 - ((1 - wing_taper_ratio) * (wing_flap_span_ratio + (body_to_span_ratio wing_thickness_to_chord_root wing_span fuselage_avg_diameter wing_center_chord))))) + ((((wing_flap_chord_ratio * wing_area) / (1 + wing_taper_ratio)) * (wing_flap_span_ratio - (body_to_span_ratio wing_thickness_to_chord_root wing_span fuselage_avg_diameter wing_center_chord))) * (-((-1) * (wing_flap_span_ratio + (body_to_span_ratio wing_thickness_to_chord_root wing_span fuselage_avg_diameter wing_center_chord))))) ∧
      HasDerivAt (fun t => sflap wing_area wing_flap_chord_ratio t wing_flap_span_ratio wing_thickness_to_chord_root wing_span fuselage_avg_diameter wing_center_chord) D wing_taper_ratio := by
    refine ⟨_, rfl, ?_⟩
    simp only [sflap]
    apply hasDerivAt_of_eq; on_goal 1 => (repeat' comp_step)
    all_goals try first | comp_side | (apply HasDerivAt.continuousAt; (repeat' comp_step); all_goals comp_side)
    all_goals try simp (disch := first | assumption | positivity) only [e0, e1, div_mul_eq_div_div, div_half, inv_half]
    all_goals try simp only [mul_zero, zero_mul, add_zero, zero_add, sub_zero, zero_sub, mul_one, one_mul, sub_self]
    all_goals try push_cast
    all_goals comp_eq
  have al_sflap_2 : sflap_2 wing_area wing_flap_chord_ratio wing_taper_ratio wing_flap_span_ratio wing_thickness_to_chord_root wing_span fuselage_avg_diameter wing_center_chord = sflap wing_area wing_flap_chord_ratio wing_taper_ratio wing_flap_span_ratio wing_thickness_to_chord_root wing_span fuselage_avg_diameter wing_center_chord := rfl
  have al_body_to_span_ratio_2 : body_to_span_ratio_2 wing_thickness_to_chord_root wing_span fuselage_avg_diameter wing_center_chord = body_to_span_ratio wing_thickness_to_chord_root wing_span fuselage_avg_diameter wing_center_chord := rfl
  have al_vflap_2 : vflap_2 sea_level_density design_wing_loading landing_lift_coefficient_max = vflap sea_level_density design_wing_loading landing_lift_coefficient_max := rfl
  try simp only [out_flap_mass, J_flap_mass__wing_taper_ratio, dsflap_dtr, u1, u2, al_sflap_2, al_body_to_span_ratio_2, al_vflap_2]
  all_goals (apply hasDerivAt_of_eq; on_goal 1 => (repeat' comp_step))
  all_goals try first | comp_side | (apply HasDerivAt.continuousAt; (repeat' comp_step); all_goals comp_side)
  all_goals try simp only [hD_sflap]
  all_goals try simp (disch := first | assumption | positivity) only [e0, e1, div_mul_eq_div_div, div_half, inv_half]
  all_goals try simp only [mul_zero, zero_mul, add_zero, zero_add, sub_zero, zero_sub, mul_one, one_mul, sub_self]
  all_goals try push_cast
  all_goals comp_eq

theorem d_flap_mass__wing_flap_span_ratio (wing_num_flap_segments sea_level_density
    wing_high_lift_mass_coefficient wing_area wing_flap_chord_ratio wing_taper_ratio
    wing_flap_span_ratio design_wing_loading wing_thickness_to_chord_root wing_span
    fuselage_avg_diameter wing_center_chord landing_lift_coefficient_max : ℝ) (h0 : 0 <
    sea_level_density) (h1 : 0 < landing_lift_coefficient_max) (h2 : 0 < design_wing_loading) (h3
    : 0 < wing_taper_ratio) (h4 : 0 < wing_thickness_to_chord_root) (h5 : 0 < wing_center_chord)
    (h6 : 0 < fuselage_avg_diameter - (wing_thickness_to_chord_root * wing_center_chord)) (h7 : 0
    < wing_span) (h8 : 0 < wing_flap_chord_ratio) (h9 : 0 < wing_area) (h10 : 0 <
    wing_flap_span_ratio - (((2 * (sqrt ((wing_thickness_to_chord_root * wing_center_chord) *
    (fuselage_avg_diameter - (wing_thickness_to_chord_root * wing_center_chord))))) + (2 / 5)) /
    wing_span)) (h11 : 0 < 2 - ((1 - wing_taper_ratio) * (wing_flap_span_ratio + (((2 * (sqrt
    ((wing_thickness_to_chord_root * wing_center_chord) * (fuselage_avg_diameter -
    (wing_thickness_to_chord_root * wing_center_chord))))) + (2 / 5)) / wing_span)))) (h12 : 0 <
    wing_num_flap_segments) (h13 : 0 < wing_flap_span_ratio - (((2 * (sqrt
    ((wing_thickness_to_chord_root * wing_center_chord) * (fuselage_avg_diameter -
    (wing_thickness_to_chord_root * wing_center_chord))))) + (2 / 5)) / wing_span)) (h14 : 0 < 2 -
    ((1 - wing_taper_ratio) * (wing_flap_span_ratio + (((2 * (sqrt ((wing_thickness_to_chord_root
    * wing_center_chord) * (fuselage_avg_diameter - (wing_thickness_to_chord_root *
    wing_center_chord))))) + (2 / 5)) / wing_span)))) :
    HasDerivAt (fun t => out_flap_mass wing_num_flap_segments sea_level_density wing_high_lift_mass_coefficient wing_area wing_flap_chord_ratio wing_taper_ratio t design_wing_loading wing_thickness_to_chord_root wing_span fuselage_avg_diameter wing_center_chord landing_lift_coefficient_max) (J_flap_mass__wing_flap_span_ratio wing_num_flap_segments sea_level_density wing_high_lift_mass_coefficient wing_area wing_flap_chord_ratio wing_taper_ratio wing_flap_span_ratio design_wing_loading wing_thickness_to_chord_root wing_span fuselage_avg_diameter wing_center_chord landing_lift_coefficient_max) wing_flap_span_ratio := by
  have hf10 : 0 < wing_flap_span_ratio - (body_to_span_ratio wing_thickness_to_chord_root wing_span fuselage_avg_diameter wing_center_chord) := by simp only [dsflap_dfsr, sflap_2, body_to_span_ratio_2, u1, vflap_2, u2, sflap, body_to_span_ratio, vflap, vstall]; exact h10
  have hf11 : 0 < 2 - ((1 - wing_taper_ratio) * (wing_flap_span_ratio + (body_to_span_ratio wing_thickness_to_chord_root wing_span fuselage_avg_diameter wing_center_chord))) := by simp only [dsflap_dfsr, sflap_2, body_to_span_ratio_2, u1, vflap_2, u2, sflap, body_to_span_ratio, vflap, vstall]; exact h11
  have hf13 : 0 < wing_flap_span_ratio - (body_to_span_ratio_2 wing_thickness_to_chord_root wing_span fuselage_avg_diameter wing_center_chord) := by simp only [dsflap_dfsr, sflap_2, body_to_span_ratio_2, u1, vflap_2, u2, sflap, body_to_span_ratio, vflap, vstall]; exact h13
  have hf14 : 0 < 2 - ((1 - wing_taper_ratio) * (wing_flap_span_ratio + (body_to_span_ratio_2 wing_thickness_to_chord_root wing_span fuselage_avg_diameter wing_center_chord))) := by simp only [dsflap_dfsr, sflap_2, body_to_span_ratio_2, u1, vflap_2, u2, sflap, body_to_span_ratio, vflap, vstall]; exact h14
  have hp0 : 0 < vflap sea_level_density design_wing_loading landing_lift_coefficient_max := by simp only [dsflap_dfsr, sflap_2, body_to_span_ratio_2, u1, vflap_2, u2, sflap, body_to_span_ratio, vflap, vstall]; comp_side
  have hp1 : 0 < sflap wing_area wing_flap_chord_ratio wing_taper_ratio wing_flap_span_ratio wing_thickness_to_chord_root wing_span fuselage_avg_diameter wing_center_chord := by simp only [dsflap_dfsr, sflap_2, body_to_span_ratio_2, u1, vflap_2, u2, sflap, body_to_span_ratio, vflap, vstall]; comp_side
  have hp2 : 0 < vflap_2 sea_level_density design_wing_loading landing_lift_coefficient_max := by simp only [dsflap_dfsr, sflap_2, body_to_span_ratio_2, u1, vflap_2, u2, sflap, body_to_span_ratio, vflap, vstall]; comp_side
  have hp3 : 0 < sflap_2 wing_area wing_flap_chord_ratio wing_taper_ratio wing_flap_span_ratio wing_thickness_to_chord_root wing_span fuselage_avg_diameter wing_center_chord := by simp only [dsflap_dfsr, sflap_2, body_to_span_ratio_2, u1, vflap_2, u2, sflap, body_to_span_ratio, vflap, vstall]; comp_side
  have hp4 : 0 < u2 sea_level_density design_wing_loading landing_lift_coefficient_max := by simp only [dsflap_dfsr, sflap_2, body_to_span_ratio_2, u1, vflap_2, u2, sflap, body_to_span_ratio, vflap, vstall]; comp_side
  have hp5 : 0 < u1 wing_thickness_to_chord_root fuselage_avg_diameter wing_center_chord := by simp only [dsflap_dfsr, sflap_2, body_to_span_ratio_2, u1, vflap_2, u2, sflap, body_to_span_ratio, vflap, vstall]; comp_side
  have e0 : ∀ x : ℝ, 0 < x → x ^ ((119 / 100) : ℝ) = x ^ ((19 / 100) : ℝ) * x ^ 1 := fun x hx => rpow_up hx 1 (by norm_num)
  have e1 : ∀ x : ℝ, 0 < x → x ^ ((119 / 50) : ℝ) = x ^ ((19 / 50) : ℝ) * x ^ 2 := fun x hx => rpow_up hx 2 (by norm_num)
  obtain ⟨D_sflap, hD_sflap, k_sflap⟩ : ∃ D : ℝ, D = (((wing_flap_chord_ratio * wing_area) / (1 + wing_taper_ratio)) * (2 - ((1 - wing_taper_ratio) * (wing_flap_span_ratio + (body_to_span_ratio wing_thickness_to_chord_root wing_span fuselage_avg_diameter wing_center_chord))))) + ((((wing_flap_chord_ratio * wing_area) / (1 + wing_taper_ratio)) * (wing_flap_span_ratio - (body_to_span_ratio wing_thickness_to_chord_root wing_span fuselage_avg_diameter wing_center_chord))) * (-(1 - wing_taper_ratio))) ∧
      HasDerivAt (fun t => sflap wing_area wing_flap_chord_ratio wing_taper_ratio t wing_thickness_to_chord_root wing_span fuselage_avg_diameter wing_center_chord) D wing_flap_span_ratio := by
    refine ⟨_, rfl, ?_⟩
    simp only [sflap]
    apply hasDerivAt_of_eq; on_goal 1 => (repeat' comp_step)
    all_goals try first | comp_side | (apply HasDerivAt.continuousAt; (repeat' comp_step); all_goals comp_side)
    all_goals try simp (disch := first | assumption | positivity) only [e0, e1, div_mul_eq_div_div, div_half, inv_half]
    all_goals try simp only [mul_zero, zero_mul, add_zero, zero_add, sub_zero, zero_sub, mul_one, one_mul, sub_self]
    all_goals try push_cast
    all_goals comp_eq
  have al_sflap_2 : sflap_2 wing_area wing_flap_chord_ratio wing_taper_ratio wing_flap_span_ratio wing_thickness_to_chord_root wing_span fuselage_avg_diameter wing_center_chord = sflap wing_area wing_flap_chord_ratio wing_taper_ratio wing_flap_span_ratio wing_thickness_to_chord_root wing_span fuselage_avg_diameter wing_center_chord := rfl
  have al_body_to_span_ratio_2 : body_to_span_ratio_2 wing_thickness_to_chord_root wing_span fuselage_avg_diameter wing_center_chord = body_to_span_ratio wing_thickness_to_chord_root wing_span fuselage_avg_diameter wing_center_chord := rfl
  have al_vflap_2 : vflap_2 sea_level_density design_wing_loading landing_lift_coefficient_max = vflap sea_level_density design_wing_loading landing_lift_coefficient_max := rfl
  try simp only [out_flap_mass, J_flap_mass__wing_flap_span_ratio, dsflap_dfsr, u1, u2, al_sflap_2, al_body_to_span_ratio_2, al_vflap_2]
  all_goals (apply hasDerivAt_of_eq; on_goal 1 => (repeat' comp_step))
  all_goals try first | comp_side | (apply HasDerivAt.continuousAt; (repeat' comp_step); all_goals comp_side)
  all_goals try simp only [hD_sflap]
  all_goals try simp (disch := first | assumption | positivity) only [e0, e1, div_mul_eq_div_div, div_half, inv_half]
  all_goals try simp only [mul_zero, zero_mul, add_zero, zero_add, sub_zero, zero_sub, mul_one, one_mul, sub_self]
  all_goals try push_cast
  all_goals comp_eq

theorem d_flap_mass__design_wing_loading (wing_num_flap_segments sea_level_density
    wing_high_lift_mass_coefficient wing_area wing_flap_chord_ratio wing_taper_ratio
    wing_flap_span_ratio design_wing_loading wing_thickness_to_chord_root wing_span
    fuselage_avg_diameter wing_center_chord landing_lift_coefficient_max : ℝ) (h0 : 0 <
    sea_level_density) (h1 : 0 < landing_lift_coefficient_max) (h2 : 0 < design_wing_loading) (h3
    : 0 < wing_taper_ratio) (h4 : 0 < wing_thickness_to_chord_root) (h5 : 0 < wing_center_chord)
    (h6 : 0 < fuselage_avg_diameter - (wing_thickness_to_chord_root * wing_center_chord)) (h7 : 0
    < wing_span) (h8 : 0 < wing_flap_chord_ratio) (h9 : 0 < wing_area) (h10 : 0 <
    wing_flap_span_ratio - (((2 * (sqrt ((wing_thickness_to_chord_root * wing_center_chord) *
    (fuselage_avg_diameter - (wing_thickness_to_chord_root * wing_center_chord))))) + (2 / 5)) /
    wing_span)) (h11 : 0 < 2 - ((1 - wing_taper_ratio) * (wing_flap_span_ratio + (((2 * (sqrt
    ((wing_thickness_to_chord_root * wing_center_chord) * (fuselage_avg_diameter -
    (wing_thickness_to_chord_root * wing_center_chord))))) + (2 / 5)) / wing_span)))) (h12 : 0 <
    wing_num_flap_segments) (h13 : 0 < wing_flap_span_ratio - (((2 * (sqrt
    ((wing_thickness_to_chord_root * wing_center_chord) * (fuselage_avg_diameter -
    (wing_thickness_to_chord_root * wing_center_chord))))) + (2 / 5)) / wing_span)) (h14 : 0 < 2 -
    ((1 - wing_taper_ratio) * (wing_flap_span_ratio + (((2 * (sqrt ((wing_thickness_to_chord_root
    * wing_center_chord) * (fuselage_avg_diameter - (wing_thickness_to_chord_root *
    wing_center_chord))))) + (2 / 5)) / wing_span)))) :
    HasDerivAt (fun t => out_flap_mass wing_num_flap_segments sea_level_density wing_high_lift_mass_coefficient wing_area wing_flap_chord_ratio wing_taper_ratio wing_flap_span_ratio t wing_thickness_to_chord_root wing_span fuselage_avg_diameter wing_center_chord landing_lift_coefficient_max) (J_flap_mass__design_wing_loading wing_num_flap_segments sea_level_density wing_high_lift_mass_coefficient wing_area wing_flap_chord_ratio wing_taper_ratio wing_flap_span_ratio design_wing_loading wing_thickness_to_chord_root wing_span fuselage_avg_diameter wing_center_chord landing_lift_coefficient_max) design_wing_loading := by
  have e0 : ∀ x : ℝ, 0 < x → x ^ ((119 / 100) : ℝ) = x ^ ((19 / 100) : ℝ) * x ^ 1 := fun x hx => rpow_up hx 1 (by norm_num)
  have e1 : ∀ x : ℝ, 0 < x → x ^ ((69 / 50) : ℝ) = x ^ ((19 / 50) : ℝ) * x ^ 1 := fun x hx => rpow_up hx 1 (by norm_num)
  have e2 : ∀ x : ℝ, 0 < x → x ^ ((119 / 50) : ℝ) = x ^ ((19 / 50) : ℝ) * x ^ 2 := fun x hx => rpow_up hx 2 (by norm_num)
  simp only [out_flap_mass, J_flap_mass__design_wing_loading, sflap_2, body_to_span_ratio_2, u1, dvflap_dwl, vflap_2, u2, sflap, body_to_span_ratio, vflap, vstall, sqrt_eq_rpow]
  (apply hasDerivAt_of_eq; on_goal 1 => (repeat' comp_step))
  all_goals try comp_side
  all_goals try simp (disch := first | assumption | positivity) only [mul_rpow, div_rpow, e0, e1, e2, div_mul_eq_div_div, div_half, inv_half]
  all_goals try simp only [mul_zero, zero_mul, add_zero, zero_add, sub_zero, zero_sub, mul_one, one_mul]
  all_goals try push_cast
  all_goals comp_eq

theorem d_flap_mass__landing_lift_coefficient_max (wing_num_flap_segments sea_level_density
    wing_high_lift_mass_coefficient wing_area wing_flap_chord_ratio wing_taper_ratio
    wing_flap_span_ratio design_wing_loading wing_thickness_to_chord_root wing_span
    fuselage_avg_diameter wing_center_chord landing_lift_coefficient_max : ℝ) (h0 : 0 <
    sea_level_density) (h1 : 0 < landing_lift_coefficient_max) (h2 : 0 < design_wing_loading) (h3
    : 0 < wing_taper_ratio) (h4 : 0 < wing_thickness_to_chord_root) (h5 : 0 < wing_center_chord)
    (h6 : 0 < fuselage_avg_diameter - (wing_thickness_to_chord_root * wing_center_chord)) (h7 : 0
    < wing_span) (h8 : 0 < wing_flap_chord_ratio) (h9 : 0 < wing_area) (h10 : 0 <
    wing_flap_span_ratio - (((2 * (sqrt ((wing_thickness_to_chord_root * wing_center_chord) *
    (fuselage_avg_diameter - (wing_thickness_to_chord_root * wing_center_chord))))) + (2 / 5)) /
    wing_span)) (h11 : 0 < 2 - ((1 - wing_taper_ratio) * (wing_flap_span_ratio + (((2 * (sqrt
    ((wing_thickness_to_chord_root * wing_center_chord) * (fuselage_avg_diameter -
    (wing_thickness_to_chord_root * wing_center_chord))))) + (2 / 5)) / wing_span)))) (h12 : 0 <
    wing_num_flap_segments) (h13 : 0 < wing_flap_span_ratio - (((2 * (sqrt
    ((wing_thickness_to_chord_root * wing_center_chord) * (fuselage_avg_diameter -
    (wing_thickness_to_chord_root * wing_center_chord))))) + (2 / 5)) / wing_span)) (h14 : 0 < 2 -
    ((1 - wing_taper_ratio) * (wing_flap_span_ratio + (((2 * (sqrt ((wing_thickness_to_chord_root
    * wing_center_chord) * (fuselage_avg_diameter - (wing_thickness_to_chord_root *
    wing_center_chord))))) + (2 / 5)) / wing_span)))) :
    HasDerivAt (fun t => out_flap_mass wing_num_flap_segments sea_level_density wing_high_lift_mass_coefficient wing_area wing_flap_chord_ratio wing_taper_ratio wing_flap_span_ratio design_wing_loading wing_thickness_to_chord_root wing_span fuselage_avg_diameter wing_center_chord t) (J_flap_mass__landing_lift_coefficient_max wing_num_flap_segments sea_level_density wing_high_lift_mass_coefficient wing_area wing_flap_chord_ratio wing_taper_ratio wing_flap_span_ratio design_wing_loading wing_thickness_to_chord_root wing_span fuselage_avg_diameter wing_center_chord landing_lift_coefficient_max) landing_lift_coefficient_max := by
  have e0 : ∀ x : ℝ, 0 < x → x ^ ((119 / 100) : ℝ) = x ^ ((19 / 100) : ℝ) * x ^ 1 := fun x hx => rpow_up hx 1 (by norm_num)
  have e1 : ∀ x : ℝ, 0 < x → x ^ ((69 / 50) : ℝ) = x ^ ((19 / 50) : ℝ) * x ^ 1 := fun x hx => rpow_up hx 1 (by norm_num)
  have e2 : ∀ x : ℝ, 0 < x → x ^ ((119 / 50) : ℝ) = x ^ ((19 / 50) : ℝ) * x ^ 2 := fun x hx => rpow_up hx 2 (by norm_num)
  simp only [out_flap_mass, J_flap_mass__landing_lift_coefficient_max, sflap_2, body_to_span_ratio_2, u1, dvflap_dcmfl, vflap_2, u2, sflap, body_to_span_ratio, vflap, vstall, sqrt_eq_rpow]
  (apply hasDerivAt_of_eq; on_goal 1 => (repeat' comp_step))
  all_goals try comp_side
  all_goals try simp (disch := first | assumption | positivity) only [mul_rpow, div_rpow, e0, e1, e2, div_mul_eq_div_div, div_half, inv_half]
  all_goals try simp only [mul_zero, zero_mul, add_zero, zero_add, sub_zero, zero_sub, mul_one, one_mul]
  all_goals try push_cast
  all_goals comp_eq

theorem d_wing_high_lift_mass__wing_high_lift_mass_coefficient (wing_num_flap_segments
    sea_level_density wing_high_lift_mass_coefficient wing_area wing_slat_chord_ratio
    wing_flap_chord_ratio wing_taper_ratio wing_flap_span_ratio wing_slat_span_ratio
    design_wing_loading wing_thickness_to_chord_root wing_span fuselage_avg_diameter
    wing_center_chord landing_lift_coefficient_max : ℝ) (h0 : 0 < sea_level_density) (h1 : 0 <
    landing_lift_coefficient_max) (h2 : 0 < design_wing_loading) (h3 : 0 < wing_taper_ratio) (h4 :
    0 < wing_thickness_to_chord_root) (h5 : 0 < wing_center_chord) (h6 : 0 < fuselage_avg_diameter
    - (wing_thickness_to_chord_root * wing_center_chord)) (h7 : 0 < wing_span) (h8 : 0 <
    wing_flap_chord_ratio) (h9 : 0 < wing_area) (h10 : 0 < wing_flap_span_ratio - (((2 * (sqrt
    ((wing_thickness_to_chord_root * wing_center_chord) * (fuselage_avg_diameter -
    (wing_thickness_to_chord_root * wing_center_chord))))) + (2 / 5)) / wing_span)) (h11 : 0 < 2 -
    ((1 - wing_taper_ratio) * (wing_flap_span_ratio + (((2 * (sqrt ((wing_thickness_to_chord_root
    * wing_center_chord) * (fuselage_avg_diameter - (wing_thickness_to_chord_root *
    wing_center_chord))))) + (2 / 5)) / wing_span)))) (h12 : 0 < wing_num_flap_segments) (h13 : 0
    < wing_slat_chord_ratio) (h14 : 0 < wing_slat_span_ratio) (h15 : 0 < 2 - ((1 -
    wing_taper_ratio) * ((99 / 100) + (((2 * (sqrt ((wing_thickness_to_chord_root *
    wing_center_chord) * (fuselage_avg_diameter - (wing_thickness_to_chord_root *
    wing_center_chord))))) + (2 / 5)) / wing_span)))) (h16 : 0 < wing_flap_span_ratio - (((2 *
    (sqrt ((wing_thickness_to_chord_root * wing_center_chord) * (fuselage_avg_diameter -
    (wing_thickness_to_chord_root * wing_center_chord))))) + (2 / 5)) / wing_span)) (h17 : 0 < 2 -
    ((1 - wing_taper_ratio) * (wing_flap_span_ratio + (((2 * (sqrt ((wing_thickness_to_chord_root
    * wing_center_chord) * (fuselage_avg_diameter - (wing_thickness_to_chord_root *
    wing_center_chord))))) + (2 / 5)) / wing_span)))) :
    HasDerivAt (fun t => out_wing_high_lift_mass wing_num_flap_segments sea_level_density t wing_area wing_slat_chord_ratio wing_flap_chord_ratio wing_taper_ratio wing_flap_span_ratio wing_slat_span_ratio design_wing_loading wing_thickness_to_chord_root wing_span fuselage_avg_diameter wing_center_chord landing_lift_coefficient_max) (J_wing_high_lift_mass__wing_high_lift_mass_coefficient wing_num_flap_segments sea_level_density wing_area wing_flap_chord_ratio wing_taper_ratio wing_flap_span_ratio design_wing_loading wing_thickness_to_chord_root wing_span fuselage_avg_diameter wing_center_chord landing_lift_coefficient_max) wing_high_lift_mass_coefficient := by
  have e0 : ∀ x : ℝ, 0 < x → x ^ ((113 / 100) : ℝ) = x ^ ((13 / 100) : ℝ) * x ^ 1 := fun x hx => rpow_up hx 1 (by norm_num)
  have e1 : ∀ x : ℝ, 0 < x → x ^ ((119 / 100) : ℝ) = x ^ ((19 / 100) : ℝ) * x ^ 1 := fun x hx => rpow_up hx 1 (by norm_num)
  have e2 : ∀ x : ℝ, 0 < x → x ^ ((119 / 50) : ℝ) = x ^ ((19 / 50) : ℝ) * x ^ 2 := fun x hx => rpow_up hx 2 (by norm_num)
  simp only [out_wing_high_lift_mass, J_wing_high_lift_mass__wing_high_lift_mass_coefficient, sflap_2, body_to_span_ratio_2, u1, vflap_2, u2, wled, sle, sflap, body_to_span_ratio, vflap, vstall, sqrt_eq_rpow]
  (apply hasDerivAt_of_eq; on_goal 1 => (repeat' comp_step))
  all_goals try comp_side
  all_goals try simp (disch := first | assumption | positivity) only [e0, e1, e2, div_mul_eq_div_div, div_half, inv_half]
  all_goals try simp only [mul_zero, zero_mul, add_zero, zero_add, sub_zero, zero_sub, mul_one, one_mul]
  all_goals try push_cast
  all_goals comp_eq

theorem d_wing_high_lift_mass__wing_area (wing_num_flap_segments sea_level_density
    wing_high_lift_mass_coefficient wing_area wing_slat_chord_ratio wing_flap_chord_ratio
    wing_taper_ratio wing_flap_span_ratio wing_slat_span_ratio design_wing_loading
    wing_thickness_to_chord_root wing_span fuselage_avg_diameter wing_center_chord
    landing_lift_coefficient_max : ℝ) (h0 : 0 < sea_level_density) (h1 : 0 <
    landing_lift_coefficient_max) (h2 : 0 < design_wing_loading) (h3 : 0 < wing_taper_ratio) (h4 :
    0 < wing_thickness_to_chord_root) (h5 : 0 < wing_center_chord) (h6 : 0 < fuselage_avg_diameter
    - (wing_thickness_to_chord_root * wing_center_chord)) (h7 : 0 < wing_span) (h8 : 0 <
    wing_flap_chord_ratio) (h9 : 0 < wing_area) (h10 : 0 < wing_flap_span_ratio - (((2 * (sqrt
    ((wing_thickness_to_chord_root * wing_center_chord) * (fuselage_avg_diameter -
    (wing_thickness_to_chord_root * wing_center_chord))))) + (2 / 5)) / wing_span)) (h11 : 0 < 2 -
    ((1 - wing_taper_ratio) * (wing_flap_span_ratio + (((2 * (sqrt ((wing_thickness_to_chord_root
    * wing_center_chord) * (fuselage_avg_diameter - (wing_thickness_to_chord_root *
    wing_center_chord))))) + (2 / 5)) / wing_span)))) (h12 : 0 < wing_num_flap_segments) (h13 : 0
    < wing_slat_chord_ratio) (h14 : 0 < wing_slat_span_ratio) (h15 : 0 < 2 - ((1 -
    wing_taper_ratio) * ((99 / 100) + (((2 * (sqrt ((wing_thickness_to_chord_root *
    wing_center_chord) * (fuselage_avg_diameter - (wing_thickness_to_chord_root *
    wing_center_chord))))) + (2 / 5)) / wing_span)))) (h16 : 0 < wing_flap_span_ratio - (((2 *
    (sqrt ((wing_thickness_to_chord_root * wing_center_chord) * (fuselage_avg_diameter -
    (wing_thickness_to_chord_root * wing_center_chord))))) + (2 / 5)) / wing_span)) (h17 : 0 < 2 -
    ((1 - wing_taper_ratio) * (wing_flap_span_ratio + (((2 * (sqrt ((wing_thickness_to_chord_root
    * wing_center_chord) * (fuselage_avg_diameter - (wing_thickness_to_chord_root *
    wing_center_chord))))) + (2 / 5)) / wing_span)))) (h18 : 0 < 2 - ((1 - wing_taper_ratio) *
    ((99 / 100) + (((2 * (sqrt ((wing_thickness_to_chord_root * wing_center_chord) *
    (fuselage_avg_diameter - (wing_thickness_to_chord_root * wing_center_chord))))) + (2 / 5)) /
    wing_span)))) :
    HasDerivAt (fun t => out_wing_high_lift_mass wing_num_flap_segments sea_level_density wing_high_lift_mass_coefficient t wing_slat_chord_ratio wing_flap_chord_ratio wing_taper_ratio wing_flap_span_ratio wing_slat_span_ratio design_wing_loading wing_thickness_to_chord_root wing_span fuselage_avg_diameter wing_center_chord landing_lift_coefficient_max) (J_wing_high_lift_mass__wing_area wing_num_flap_segments sea_level_density wing_high_lift_mass_coefficient wing_area wing_slat_chord_ratio wing_flap_chord_ratio wing_taper_ratio wing_flap_span_ratio wing_slat_span_ratio design_wing_loading wing_thickness_to_chord_root wing_span fuselage_avg_diameter wing_center_chord landing_lift_coefficient_max) wing_area := by
  have hf10 : 0 < wing_flap_span_ratio - (body_to_span_ratio wing_thickness_to_chord_root wing_span fuselage_avg_diameter wing_center_chord) := by simp only [dsle_dwa, sle_2, dsflap_dwa, sflap_2, body_to_span_ratio_2, u1, vflap_2, u2, wled, sle, sflap, body_to_span_ratio, vflap, vstall]; exact h10
  have hf11 : 0 < 2 - ((1 - wing_taper_ratio) * (wing_flap_span_ratio + (body_to_span_ratio wing_thickness_to_chord_root wing_span fuselage_avg_diameter wing_center_chord))) := by simp only [dsle_dwa, sle_2, dsflap_dwa, sflap_2, body_to_span_ratio_2, u1, vflap_2, u2, wled, sle, sflap, body_to_span_ratio, vflap, vstall]; exact h11
  have hf15 : 0 < 2 - ((1 - wing_taper_ratio) * ((99 / 100) + (body_to_span_ratio wing_thickness_to_chord_root wing_span fuselage_avg_diameter wing_center_chord))) := by simp only [dsle_dwa, sle_2, dsflap_dwa, sflap_2, body_to_span_ratio_2, u1, vflap_2, u2, wled, sle, sflap, body_to_span_ratio, vflap, vstall]; exact h15
  have hf16 : 0 < wing_flap_span_ratio - (body_to_span_ratio_2 wing_thickness_to_chord_root wing_span fuselage_avg_diameter wing_center_chord) := by simp only [dsle_dwa, sle_2, dsflap_dwa, sflap_2, body_to_span_ratio_2, u1, vflap_2, u2, wled, sle, sflap, body_to_span_ratio, vflap, vstall]; exact h16
  have hf17 : 0 < 2 - ((1 - wing_taper_ratio) * (wing_flap_span_ratio + (body_to_span_ratio_2 wing_thickness_to_chord_root wing_span fuselage_avg_diameter wing_center_chord))) := by simp only [dsle_dwa, sle_2, dsflap_dwa, sflap_2, body_to_span_ratio_2, u1, vflap_2, u2, wled, sle, sflap, body_to_span_ratio, vflap, vstall]; exact h17
  have hf18 : 0 < 2 - ((1 - wing_taper_ratio) * ((99 / 100) + (body_to_span_ratio_2 wing_thickness_to_chord_root wing_span fuselage_avg_diameter wing_center_chord))) := by simp only [dsle_dwa, sle_2, dsflap_dwa, sflap_2, body_to_span_ratio_2, u1, vflap_2, u2, wled, sle, sflap, body_to_span_ratio, vflap, vstall]; exact h18
  have hp0 : 0 < sle wing_area wing_slat_chord_ratio wing_taper_ratio wing_slat_span_ratio wing_thickness_to_chord_root wing_span fuselage_avg_diameter wing_center_chord := by simp only [dsle_dwa, sle_2, dsflap_dwa, sflap_2, body_to_span_ratio_2, u1, vflap_2, u2, wled, sle, sflap, body_to_span_ratio, vflap, vstall]; comp_side
  have hp1 : 0 < vflap sea_level_density design_wing_loading landing_lift_coefficient_max := by simp only [dsle_dwa, sle_2, dsflap_dwa, sflap_2, body_to_span_ratio_2, u1, vflap_2, u2, wled, sle, sflap, body_to_span_ratio, vflap, vstall]; comp_side
  have hp2 : 0 < sflap wing_area wing_flap_chord_ratio wing_taper_ratio wing_flap_span_ratio wing_thickness_to_chord_root wing_span fuselage_avg_diameter wing_center_chord := by simp only [dsle_dwa, sle_2, dsflap_dwa, sflap_2, body_to_span_ratio_2, u1, vflap_2, u2, wled, sle, sflap, body_to_span_ratio, vflap, vstall]; comp_side
  have hp3 : 0 < vflap_2 sea_level_density design_wing_loading landing_lift_coefficient_max := by simp only [dsle_dwa, sle_2, dsflap_dwa, sflap_2, body_to_span_ratio_2, u1, vflap_2, u2, wled, sle, sflap, body_to_span_ratio, vflap, vstall]; comp_side
  have hp4 : 0 < sflap_2 wing_area wing_flap_chord_ratio wing_taper_ratio wing_flap_span_ratio wing_thickness_to_chord_root wing_span fuselage_avg_diameter wing_center_chord := by simp only [dsle_dwa, sle_2, dsflap_dwa, sflap_2, body_to_span_ratio_2, u1, vflap_2, u2, wled, sle, sflap, body_to_span_ratio, vflap, vstall]; comp_side
  have hp5 : 0 < sle_2 wing_area wing_slat_chord_ratio wing_taper_ratio wing_slat_span_ratio wing_thickness_to_chord_root wing_span fuselage_avg_diameter wing_center_chord := by simp only [dsle_dwa, sle_2, dsflap_dwa, sflap_2, body_to_span_ratio_2, u1, vflap_2, u2, wled, sle, sflap, body_to_span_ratio, vflap, vstall]; comp_side
  have hp6 : 0 < u2 sea_level_density design_wing_loading landing_lift_coefficient_max := by simp only [dsle_dwa, sle_2, dsflap_dwa, sflap_2, body_to_span_ratio_2, u1, vflap_2, u2, wled, sle, sflap, body_to_span_ratio, vflap, vstall]; comp_side
  have hp7 : 0 < u1 wing_thickness_to_chord_root fuselage_avg_diameter wing_center_chord := by simp only [dsle_dwa, sle_2, dsflap_dwa, sflap_2, body_to_span_ratio_2, u1, vflap_2, u2, wled, sle, sflap, body_to_span_ratio, vflap, vstall]; comp_side
  have e0 : ∀ x : ℝ, 0 < x → x ^ ((113 / 100) : ℝ) = x ^ ((13 / 100) : ℝ) * x ^ 1 := fun x hx => rpow_up hx 1 (by norm_num)
  have e1 : ∀ x : ℝ, 0 < x → x ^ ((119 / 100) : ℝ) = x ^ ((19 / 100) : ℝ) * x ^ 1 := fun x hx => rpow_up hx 1 (by norm_num)
  have e2 : ∀ x : ℝ, 0 < x → x ^ ((119 / 50) : ℝ) = x ^ ((19 / 50) : ℝ) * x ^ 2 := fun x hx => rpow_up hx 2 (by norm_num)
  obtain ⟨D_sflap, hD_sflap, k_sflap⟩ : ∃ D : ℝ, D = ((wing_flap_chord_ratio / (1 + wing_taper_ratio)) * (wing_flap_span_ratio - (body_to_span_ratio wing_thickness_to_chord_root wing_span fuselage_avg_diameter wing_center_chord))) * (2 - ((1 - wing_taper_ratio) * (wing_flap_span_ratio + (body_to_span_ratio wing_thickness_to_chord_root wing_span fuselage_avg_diameter wing_center_chord)))) ∧
      HasDerivAt (fun t => sflap t wing_flap_chord_ratio wing_taper_ratio wing_flap_span_ratio wing_thickness_to_chord_root wing_span fuselage_avg_diameter wing_center_chord) D wing_area := by
    refine ⟨_, rfl, ?_⟩
    simp only [sflap]
    apply hasDerivAt_of_eq; on_goal 1 => (repeat' comp_step)
    all_goals try first | comp_side | (apply HasDerivAt.continuousAt; (repeat' comp_step); all_goals comp_side)
    all_goals try simp (disch := first | assumption | positivity) only [e0, e1, e2, div_mul_eq_div_div, div_half, inv_half]
    all_goals try simp only [mul_zero, zero_mul, add_zero, zero_add, sub_zero, zero_sub, mul_one, one_mul, sub_self]
    all_goals try push_cast
    all_goals comp_eq
  obtain ⟨D_sle, hD_sle, k_sle⟩ : ∃ D : ℝ, D = ((wing_slat_chord_ratio / (1 + wing_taper_ratio)) * wing_slat_span_ratio) * (2 - ((1 - wing_taper_ratio) * ((99 / 100) + (body_to_span_ratio wing_thickness_to_chord_root wing_span fuselage_avg_diameter wing_center_chord)))) ∧
      HasDerivAt (fun t => sle t wing_slat_chord_ratio wing_taper_ratio wing_slat_span_ratio wing_thickness_to_chord_root wing_span fuselage_avg_diameter wing_center_chord) D wing_area := by
    refine ⟨_, rfl, ?_⟩
    simp only [sle]
    apply hasDerivAt_of_eq; on_goal 1 => (repeat' comp_step)
    all_goals try first | comp_side | (apply HasDerivAt.continuousAt; (repeat' comp_step); all_goals comp_side)
    all_goals try simp (disch := first | assumption | positivity) only [e0, e1, e2, div_mul_eq_div_div, div_half, inv_half]
    all_goals try simp only [mul_zero, zero_mul, add_zero, zero_add, sub_zero, zero_sub, mul_one, one_mul, sub_self]
    all_goals try push_cast
    all_goals comp_eq
  obtain ⟨D_wled, hD_wled, k_wled⟩ : ∃ D : ℝ, D = (82 / 25) * (((113 / 100) * ((sle wing_area wing_slat_chord_ratio wing_taper_ratio wing_slat_span_ratio wing_thickness_to_chord_root wing_span fuselage_avg_diameter wing_center_chord) ^ ((13 / 100) : ℝ))) * D_sle) ∧
      HasDerivAt (fun t => wled t wing_slat_chord_ratio wing_taper_ratio wing_slat_span_ratio wing_thickness_to_chord_root wing_span fuselage_avg_diameter wing_center_chord) D wing_area := by
    refine ⟨_, rfl, ?_⟩
    simp only [wled]
    apply hasDerivAt_of_eq; on_goal 1 => (repeat' comp_step)
    all_goals try first | comp_side | (apply HasDerivAt.continuousAt; (repeat' comp_step); all_goals comp_side)
    all_goals try simp (disch := first | assumption | positivity) only [e0, e1, e2, div_mul_eq_div_div, div_half, inv_half]
    all_goals try simp only [mul_zero, zero_mul, add_zero, zero_add, sub_zero, zero_sub, mul_one, one_mul, sub_self]
    all_goals try push_cast
    all_goals comp_eq
  have al_sle_2 : sle_2 wing_area wing_slat_chord_ratio wing_taper_ratio wing_slat_span_ratio wing_thickness_to_chord_root wing_span fuselage_avg_diameter wing_center_chord = sle wing_area wing_slat_chord_ratio wing_taper_ratio wing_slat_span_ratio wing_thickness_to_chord_root wing_span fuselage_avg_diameter wing_center_chord := rfl
  have al_sflap_2 : sflap_2 wing_area wing_flap_chord_ratio wing_taper_ratio wing_flap_span_ratio wing_thickness_to_chord_root wing_span fuselage_avg_diameter wing_center_chord = sflap wing_area wing_flap_chord_ratio wing_taper_ratio wing_flap_span_ratio wing_thickness_to_chord_root wing_span fuselage_avg_diameter wing_center_chord := rfl
  have al_body_to_span_ratio_2 : body_to_span_ratio_2 wing_thickness_to_chord_root wing_span fuselage_avg_diameter wing_center_chord = body_to_span_ratio wing_thickness_to_chord_root wing_span fuselage_avg_diameter wing_center_chord := rfl
  have al_vflap_2 : vflap_2 sea_level_density design_wing_loading landing_lift_coefficient_max = vflap sea_level_density design_wing_loading landing_lift_coefficient_max := rfl
  try simp only [out_wing_high_lift_mass, J_wing_high_lift_mass__wing_area, dsle_dwa, dsflap_dwa, u1, u2, al_sle_2, al_sflap_2, al_body_to_span_ratio_2, al_vflap_2]
  all_goals (apply hasDerivAt_of_eq; on_goal 1 => (repeat' comp_step))
  all_goals try first | comp_side | (apply HasDerivAt.continuousAt; (repeat' comp_step); all_goals comp_side)
  all_goals try simp only [hD_sflap, hD_sle, hD_wled]
  all_goals try simp (disch := first | assumption | positivity) only [e0, e1, e2, div_mul_eq_div_div, div_half, inv_half]
  all_goals try simp only [mul_zero, zero_mul, add_zero, zero_add, sub_zero, zero_sub, mul_one, one_mul, sub_self]
  all_goals try push_cast
  all_goals comp_eq

theorem d_wing_high_lift_mass__wing_slat_chord_ratio (wing_num_flap_segments sea_level_density
    wing_high_lift_mass_coefficient wing_area wing_slat_chord_ratio wing_flap_chord_ratio
    wing_taper_ratio wing_flap_span_ratio wing_slat_span_ratio design_wing_loading
    wing_thickness_to_chord_root wing_span fuselage_avg_diameter wing_center_chord
    landing_lift_coefficient_max : ℝ) (h0 : 0 < sea_level_density) (h1 : 0 <
    landing_lift_coefficient_max) (h2 : 0 < design_wing_loading) (h3 : 0 < wing_taper_ratio) (h4 :
    0 < wing_thickness_to_chord_root) (h5 : 0 < wing_center_chord) (h6 : 0 < fuselage_avg_diameter
    - (wing_thickness_to_chord_root * wing_center_chord)) (h7 : 0 < wing_span) (h8 : 0 <
    wing_flap_chord_ratio) (h9 : 0 < wing_area) (h10 : 0 < wing_flap_span_ratio - (((2 * (sqrt
    ((wing_thickness_to_chord_root * wing_center_chord) * (fuselage_avg_diameter -
    (wing_thickness_to_chord_root * wing_center_chord))))) + (2 / 5)) / wing_span)) (h11 : 0 < 2 -
    ((1 - wing_taper_ratio) * (wing_flap_span_ratio + (((2 * (sqrt ((wing_thickness_to_chord_root
    * wing_center_chord) * (fuselage_avg_diameter - (wing_thickness_to_chord_root *
    wing_center_chord))))) + (2 / 5)) / wing_span)))) (h12 : 0 < wing_num_flap_segments) (h13 : 0
    < wing_slat_chord_ratio) (h14 : 0 < wing_slat_span_ratio) (h15 : 0 < 2 - ((1 -
    wing_taper_ratio) * ((99 / 100) + (((2 * (sqrt ((wing_thickness_to_chord_root *
    wing_center_chord) * (fuselage_avg_diameter - (wing_thickness_to_chord_root *
    wing_center_chord))))) + (2 / 5)) / wing_span)))) (h16 : 0 < 2 - ((1 - wing_taper_ratio) *
    ((99 / 100) + (((2 * (sqrt ((wing_thickness_to_chord_root * wing_center_chord) *
    (fuselage_avg_diameter - (wing_thickness_to_chord_root * wing_center_chord))))) + (2 / 5)) /
    wing_span)))) :
    HasDerivAt (fun t => out_wing_high_lift_mass wing_num_flap_segments sea_level_density wing_high_lift_mass_coefficient wing_area t wing_flap_chord_ratio wing_taper_ratio wing_flap_span_ratio wing_slat_span_ratio design_wing_loading wing_thickness_to_chord_root wing_span fuselage_avg_diameter wing_center_chord landing_lift_coefficient_max) (J_wing_high_lift_mass__wing_slat_chord_ratio wing_area wing_slat_chord_ratio wing_taper_ratio wing_slat_span_ratio wing_thickness_to_chord_root wing_span fuselage_avg_diameter wing_center_chord) wing_slat_chord_ratio := by
  have hf10 : 0 < wing_flap_span_ratio - (body_to_span_ratio wing_thickness_to_chord_root wing_span fuselage_avg_diameter wing_center_chord) := by simp only [dsle_dscr, sle_2, body_to_span_ratio_2, u1, wled, sle, sflap, body_to_span_ratio, vflap, vstall]; exact h10
  have hf11 : 0 < 2 - ((1 - wing_taper_ratio) * (wing_flap_span_ratio + (body_to_span_ratio wing_thickness_to_chord_root wing_span fuselage_avg_diameter wing_center_chord))) := by simp only [dsle_dscr, sle_2, body_to_span_ratio_2, u1, wled, sle, sflap, body_to_span_ratio, vflap, vstall]; exact h11
  have hf15 : 0 < 2 - ((1 - wing_taper_ratio) * ((99 / 100) + (body_to_span_ratio wing_thickness_to_chord_root wing_span fuselage_avg_diameter wing_center_chord))) := by simp only [dsle_dscr, sle_2, body_to_span_ratio_2, u1, wled, sle, sflap, body_to_span_ratio, vflap, vstall]; exact h15
  have hf16 : 0 < 2 - ((1 - wing_taper_ratio) * ((99 / 100) + (body_to_span_ratio_2 wing_thickness_to_chord_root wing_span fuselage_avg_diameter wing_center_chord))) := by simp only [dsle_dscr, sle_2, body_to_span_ratio_2, u1, wled, sle, sflap, body_to_span_ratio, vflap, vstall]; exact h16
  have hp0 : 0 < sle wing_area wing_slat_chord_ratio wing_taper_ratio wing_slat_span_ratio wing_thickness_to_chord_root wing_span fuselage_avg_diameter wing_center_chord := by simp only [dsle_dscr, sle_2, body_to_span_ratio_2, u1, wled, sle, sflap, body_to_span_ratio, vflap, vstall]; comp_side
  have hp1 : 0 < vflap sea_level_density design_wing_loading landing_lift_coefficient_max := by simp only [dsle_dscr, sle_2, body_to_span_ratio_2, u1, wled, sle, sflap, body_to_span_ratio, vflap, vstall]; comp_side
  have hp2 : 0 < sflap wing_area wing_flap_chord_ratio wing_taper_ratio wing_flap_span_ratio wing_thickness_to_chord_root wing_span fuselage_avg_diameter wing_center_chord := by simp only [dsle_dscr, sle_2, body_to_span_ratio_2, u1, wled, sle, sflap, body_to_span_ratio, vflap, vstall]; comp_side
  have hp3 : 0 < sle_2 wing_area wing_slat_chord_ratio wing_taper_ratio wing_slat_span_ratio wing_thickness_to_chord_root wing_span fuselage_avg_diameter wing_center_chord := by simp only [dsle_dscr, sle_2, body_to_span_ratio_2, u1, wled, sle, sflap, body_to_span_ratio, vflap, vstall]; comp_side
  have hp4 : 0 < u1 wing_thickness_to_chord_root fuselage_avg_diameter wing_center_chord := by simp only [dsle_dscr, sle_2, body_to_span_ratio_2, u1, wled, sle, sflap, body_to_span_ratio, vflap, vstall]; comp_side
  have e0 : ∀ x : ℝ, 0 < x → x ^ ((113 / 100) : ℝ) = x ^ ((13 / 100) : ℝ) * x ^ 1 := fun x hx => rpow_up hx 1 (by norm_num)
  have e1 : ∀ x : ℝ, 0 < x → x ^ ((119 / 100) : ℝ) = x ^ ((19 / 100) : ℝ) * x ^ 1 := fun x hx => rpow_up hx 1 (by norm_num)
  have e2 : ∀ x : ℝ, 0 < x → x ^ ((119 / 50) : ℝ) = x ^ ((19 / 50) : ℝ) * x ^ 2 := fun x hx => rpow_up hx 2 (by norm_num)
  obtain ⟨D_sle, hD_sle, k_sle⟩ : ∃ D : ℝ, D = ((wing_area / (1 + wing_taper_ratio)) * wing_slat_span_ratio) * (2 - ((1 - wing_taper_ratio) * ((99 / 100) + (body_to_span_ratio wing_thickness_to_chord_root wing_span fuselage_avg_diameter wing_center_chord)))) ∧
      HasDerivAt (fun t => sle wing_area t wing_taper_ratio wing_slat_span_ratio wing_thickness_to_chord_root wing_span fuselage_avg_diameter wing_center_chord) D wing_slat_chord_ratio := by
    refine ⟨_, rfl, ?_⟩
    simp only [sle]
    apply hasDerivAt_of_eq; on_goal 1 => (repeat' comp_step)
    all_goals try first | comp_side | (apply HasDerivAt.continuousAt; (repeat' comp_step); all_goals comp_side)
    all_goals try simp (disch := first | assumption | positivity) only [e0, e1, e2, div_mul_eq_div_div, div_half, inv_half]
    all_goals try simp only [mul_zero, zero_mul, add_zero, zero_add, sub_zero, zero_sub, mul_one, one_mul, sub_self]
    all_goals try push_cast
    all_goals comp_eq
  obtain ⟨D_wled, hD_wled, k_wled⟩ : ∃ D : ℝ, D = (82 / 25) * (((113 / 100) * ((sle wing_area wing_slat_chord_ratio wing_taper_ratio wing_slat_span_ratio wing_thickness_to_chord_root wing_span fuselage_avg_diameter wing_center_chord) ^ ((13 / 100) : ℝ))) * D_sle) ∧
      HasDerivAt (fun t => wled wing_area t wing_taper_ratio wing_slat_span_ratio wing_thickness_to_chord_root wing_span fuselage_avg_diameter wing_center_chord) D wing_slat_chord_ratio := by
    refine ⟨_, rfl, ?_⟩
    simp only [wled]
    apply hasDerivAt_of_eq; on_goal 1 => (repeat' comp_step)
    all_goals try first | comp_side | (apply HasDerivAt.continuousAt; (repeat' comp_step); all_goals comp_side)
    all_goals try simp (disch := first | assumption | positivity) only [e0, e1, e2, div_mul_eq_div_div, div_half, inv_half]
    all_goals try simp only [mul_zero, zero_mul, add_zero, zero_add, sub_zero, zero_sub, mul_one, one_mul, sub_self]
    all_goals try push_cast
    all_goals comp_eq
  have al_sle_2 : sle_2 wing_area wing_slat_chord_ratio wing_taper_ratio wing_slat_span_ratio wing_thickness_to_chord_root wing_span fuselage_avg_diameter wing_center_chord = sle wing_area wing_slat_chord_ratio wing_taper_ratio wing_slat_span_ratio wing_thickness_to_chord_root wing_span fuselage_avg_diameter wing_center_chord := rfl
  have al_body_to_span_ratio_2 : body_to_span_ratio_2 wing_thickness_to_chord_root wing_span fuselage_avg_diameter wing_center_chord = body_to_span_ratio wing_thickness_to_chord_root wing_span fuselage_avg_diameter wing_center_chord := rfl
  try simp only [out_wing_high_lift_mass, J_wing_high_lift_mass__wing_slat_chord_ratio, dsle_dscr, u1, al_sle_2, al_body_to_span_ratio_2]
  all_goals (apply hasDerivAt_of_eq; on_goal 1 => (repeat' comp_step))
  all_goals try first | comp_side | (apply HasDerivAt.continuousAt; (repeat' comp_step); all_goals comp_side)
  all_goals try simp only [hD_sle, hD_wled]
  all_goals try simp (disch := first | assumption | positivity) only [e0, e1, e2, div_mul_eq_div_div, div_half, inv_half]
  all_goals try simp only [mul_zero, zero_mul, add_zero, zero_add, sub_zero, zero_sub, mul_one, one_mul, sub_self]
  all_goals try push_cast
  all_goals comp_eq

theorem d_wing_high_lift_mass__wing_flap_chord_ratio (wing_num_flap_segments sea_level_density
    wing_high_lift_mass_coefficient wing_area wing_slat_chord_ratio wing_flap_chord_ratio
    wing_taper_ratio wing_flap_span_ratio wing_slat_span_ratio design_wing_loading
    wing_thickness_to_chord_root wing_span fuselage_avg_diameter wing_center_chord
    landing_lift_coefficient_max : ℝ) (h0 : 0 < sea_level_density) (h1 : 0 <
    landing_lift_coefficient_max) (h2 : 0 < design_wing_loading) (h3 : 0 < wing_taper_ratio) (h4 :
    0 < wing_thickness_to_chord_root) (h5 : 0 < wing_center_chord) (h6 : 0 < fuselage_avg_diameter
    - (wing_thickness_to_chord_root * wing_center_chord)) (h7 : 0 < wing_span) (h8 : 0 <
    wing_flap_chord_ratio) (h9 : 0 < wing_area) (h10 : 0 < wing_flap_span_ratio - (((2 * (sqrt
    ((wing_thickness_to_chord_root * wing_center_chord) * (fuselage_avg_diameter -
    (wing_thickness_to_chord_root * wing_center_chord))))) + (2 / 5)) / wing_span)) (h11 : 0 < 2 -
    ((1 - wing_taper_ratio) * (wing_flap_span_ratio + (((2 * (sqrt ((wing_thickness_to_chord_root
    * wing_center_chord) * (fuselage_avg_diameter - (wing_thickness_to_chord_root *
    wing_center_chord))))) + (2 / 5)) / wing_span)))) (h12 : 0 < wing_num_flap_segments) (h13 : 0
    < wing_slat_chord_ratio) (h14 : 0 < wing_slat_span_ratio) (h15 : 0 < 2 - ((1 -
    wing_taper_ratio) * ((99 / 100) + (((2 * (sqrt ((wing_thickness_to_chord_root *
    wing_center_chord) * (fuselage_avg_diameter - (wing_thickness_to_chord_root *
    wing_center_chord))))) + (2 / 5)) / wing_span)))) (h16 : 0 < wing_flap_span_ratio - (((2 *
    (sqrt ((wing_thickness_to_chord_root * wing_center_chord) * (fuselage_avg_diameter -
    (wing_thickness_to_chord_root * wing_center_chord))))) + (2 / 5)) / wing_span)) (h17 : 0 < 2 -
    ((1 - wing_taper_ratio) * (wing_flap_span_ratio + (((2 * (sqrt ((wing_thickness_to_chord_root
    * wing_center_chord) * (fuselage_avg_diameter - (wing_thickness_to_chord_root *
    wing_center_chord))))) + (2 / 5)) / wing_span)))) :
    HasDerivAt (fun t => out_wing_high_lift_mass wing_num_flap_segments sea_level_density wing_high_lift_mass_coefficient wing_area wing_slat_chord_ratio t wing_taper_ratio wing_flap_span_ratio wing_slat_span_ratio design_wing_loading wing_thickness_to_chord_root wing_span fuselage_avg_diameter wing_center_chord landing_lift_coefficient_max) (J_wing_high_lift_mass__wing_flap_chord_ratio wing_num_flap_segments sea_level_density wing_high_lift_mass_coefficient wing_area wing_flap_chord_ratio wing_taper_ratio wing_flap_span_ratio design_wing_loading wing_thickness_to_chord_root wing_span fuselage_avg_diameter wing_center_chord landing_lift_coefficient_max) wing_flap_chord_ratio := by
  have hf10 : 0 < wing_flap_span_ratio - (body_to_span_ratio wing_thickness_to_chord_root wing_span fuselage_avg_diameter wing_center_chord) := by simp only [dsflap_dfcr, sflap_2, body_to_span_ratio_2, u1, vflap_2, u2, wled, sle, sflap, body_to_span_ratio, vflap, vstall]; exact h10
  have hf11 : 0 < 2 - ((1 - wing_taper_ratio) * (wing_flap_span_ratio + (body_to_span_ratio wing_thickness_to_chord_root wing_span fuselage_avg_diameter wing_center_chord))) := by simp only [dsflap_dfcr, sflap_2, body_to_span_ratio_2, u1, vflap_2, u2, wled, sle, sflap, body_to_span_ratio, vflap, vstall]; exact h11
  have hf15 : 0 < 2 - ((1 - wing_taper_ratio) * ((99 / 100) + (body_to_span_ratio wing_thickness_to_chord_root wing_span fuselage_avg_diameter wing_center_chord))) := by simp only [dsflap_dfcr, sflap_2, body_to_span_ratio_2, u1, vflap_2, u2, wled, sle, sflap, body_to_span_ratio, vflap, vstall]; exact h15
  have hf16 : 0 < wing_flap_span_ratio - (body_to_span_ratio_2 wing_thickness_to_chord_root wing_span fuselage_avg_diameter wing_center_chord) := by simp only [dsflap_dfcr, sflap_2, body_to_span_ratio_2, u1, vflap_2, u2, wled, sle, sflap, body_to_span_ratio, vflap, vstall]; exact h16
  have hf17 : 0 < 2 - ((1 - wing_taper_ratio) * (wing_flap_span_ratio + (body_to_span_ratio_2 wing_thickness_to_chord_root wing_span fuselage_avg_diameter wing_center_chord))) := by simp only [dsflap_dfcr, sflap_2, body_to_span_ratio_2, u1, vflap_2, u2, wled, sle, sflap, body_to_span_ratio, vflap, vstall]; exact h17
  have hp0 : 0 < sle wing_area wing_slat_chord_ratio wing_taper_ratio wing_slat_span_ratio wing_thickness_to_chord_root wing_span fuselage_avg_diameter wing_center_chord := by simp only [dsflap_dfcr, sflap_2, body_to_span_ratio_2, u1, vflap_2, u2, wled, sle, sflap, body_to_span_ratio, vflap, vstall]; comp_side
  have hp1 : 0 < vflap sea_level_density design_wing_loading landing_lift_coefficient_max := by simp only [dsflap_dfcr, sflap_2, body_to_span_ratio_2, u1, vflap_2, u2, wled, sle, sflap, body_to_span_ratio, vflap, vstall]; comp_side
  have hp2 : 0 < sflap wing_area wing_flap_chord_ratio wing_taper_ratio wing_flap_span_ratio wing_thickness_to_chord_root wing_span fuselage_avg_diameter wing_center_chord := by simp only [dsflap_dfcr, sflap_2, body_to_span_ratio_2, u1, vflap_2, u2, wled, sle, sflap, body_to_span_ratio, vflap, vstall]; comp_side
  have hp3 : 0 < vflap_2 sea_level_density design_wing_loading landing_lift_coefficient_max := by simp only [dsflap_dfcr, sflap_2, body_to_span_ratio_2, u1, vflap_2, u2, wled, sle, sflap, body_to_span_ratio, vflap, vstall]; comp_side
  have hp4 : 0 < sflap_2 wing_area wing_flap_chord_ratio wing_taper_ratio wing_flap_span_ratio wing_thickness_to_chord_root wing_span fuselage_avg_diameter wing_center_chord := by simp only [dsflap_dfcr, sflap_2, body_to_span_ratio_2, u1, vflap_2, u2, wled, sle, sflap, body_to_span_ratio, vflap, vstall]; comp_side
  have hp5 : 0 < u2 sea_level_density design_wing_loading landing_lift_coefficient_max := by simp only [dsflap_dfcr, sflap_2, body_to_span_ratio_2, u1, vflap_2, u2, wled, sle, sflap, body_to_span_ratio, vflap, vstall]; comp_side
  have hp6 : 0 < u1 wing_thickness_to_chord_root fuselage_avg_diameter wing_center_chord := by simp only [dsflap_dfcr, sflap_2, body_to_span_ratio_2, u1, vflap_2, u2, wled, sle, sflap, body_to_span_ratio, vflap, vstall]; comp_side
  have e0 : ∀ x : ℝ, 0 < x → x ^ ((113 / 100) : ℝ) = x ^ ((13 / 100) : ℝ) * x ^ 1 := fun x hx => rpow_up hx 1 (by norm_num)
  have e1 : ∀ x : ℝ, 0 < x → x ^ ((119 / 100) : ℝ) = x ^ ((19 / 100) : ℝ) * x ^ 1 := fun x hx => rpow_up hx 1 (by norm_num)
  have e2 : ∀ x : ℝ, 0 < x → x ^ ((119 / 50) : ℝ) = x ^ ((19 / 50) : ℝ) * x ^ 2 := fun x hx => rpow_up hx 2 (by norm_num)
  obtain ⟨D_sflap, hD_sflap, k_sflap⟩ : ∃ D : ℝ, D = ((wing_area / (1 + wing_taper_ratio)) * (wing_flap_span_ratio - (body_to_span_ratio wing_thickness_to_chord_root wing_span fuselage_avg_diameter wing_center_chord))) * (2 - ((1 - wing_taper_ratio) * (wing_flap_span_ratio + (body_to_span_ratio wing_thickness_to_chord_root wing_span fuselage_avg_diameter wing_center_chord)))) ∧
      HasDerivAt (fun t => sflap wing_area t wing_taper_ratio wing_flap_span_ratio wing_thickness_to_chord_root wing_span fuselage_avg_diameter wing_center_chord) D wing_flap_chord_ratio := by
    refine ⟨_, rfl, ?_⟩
    simp only [sflap]
    apply hasDerivAt_of_eq; on_goal 1 => (repeat' comp_step)
    all_goals try first | comp_side | (apply HasDerivAt.continuousAt; (repeat' comp_step); all_goals comp_side)
    all_goals try simp (disch := first | assumption | positivity) only [e0, e1, e2, div_mul_eq_div_div, div_half, inv_half]
    all_goals try simp only [mul_zero, zero_mul, add_zero, zero_add, sub_zero, zero_sub, mul_one, one_mul, sub_self]
    all_goals try push_cast
    all_goals comp_eq
  have al_sflap_2 : sflap_2 wing_area wing_flap_chord_ratio wing_taper_ratio wing_flap_span_ratio wing_thickness_to_chord_root wing_span fuselage_avg_diameter wing_center_chord = sflap wing_area wing_flap_chord_ratio wing_taper_ratio wing_flap_span_ratio wing_thickness_to_chord_root wing_span fuselage_avg_diameter wing_center_chord := rfl
  have al_body_to_span_ratio_2 : body_to_span_ratio_2 wing_thickness_to_chord_root wing_span fuselage_avg_diameter wing_center_chord = body_to_span_ratio wing_thickness_to_chord_root wing_span fuselage_avg_diameter wing_center_chord := rfl
  have al_vflap_2 : vflap_2 sea_level_density design_wing_loading landing_lift_coefficient_max = vflap sea_level_density design_wing_loading landing_lift_coefficient_max := rfl
  try simp only [out_wing_high_lift_mass, J_wing_high_lift_mass__wing_flap_chord_ratio, dsflap_dfcr, u1, u2, al_sflap_2, al_body_to_span_ratio_2, al_vflap_2]
  all_goals (apply hasDerivAt_of_eq; on_goal 1 => (repeat' comp_step))
  all_goals try first | comp_side | (apply HasDerivAt.continuousAt; (repeat' comp_step); all_goals comp_side)
  all_goals try simp only [hD_sflap]
  all_goals try simp (disch := first | assumption | positivity) only [e0, e1, e2, div_mul_eq_div_div, div_half, inv_half]
  all_goals try simp only [mul_zero, zero_mul, add_zero, zero_add, sub_zero, zero_sub, mul_one, one_mul, sub_self]
  all_goals try push_cast
  all_goals comp_eq

theorem d_wing_high_lift_mass__wing_taper_ratio (wing_num_flap_segments sea_level_density
    wing_high_lift_mass_coefficient wing_area wing_slat_chord_ratio wing_flap_chord_ratio
    wing_taper_ratio wing_flap_span_ratio wing_slat_span_ratio design_wing_loading
    wing_thickness_to_chord_root wing_span fuselage_avg_diameter wing_center_chord
    landing_lift_coefficient_max : ℝ) (h0 : 0 < sea_level_density) (h1 : 0 <
    landing_lift_coefficient_max) (h2 : 0 < design_wing_loading) (h3 : 0 < wing_taper_ratio) (h4 :
    0 < wing_thickness_to_chord_root) (h5 : 0 < wing_center_chord) (h6 : 0 < fuselage_avg_diameter
    - (wing_thickness_to_chord_root * wing_center_chord)) (h7 : 0 < wing_span) (h8 : 0 <
    wing_flap_chord_ratio) (h9 : 0 < wing_area) (h10 : 0 < wing_flap_span_ratio - (((2 * (sqrt
    ((wing_thickness_to_chord_root * wing_center_chord) * (fuselage_avg_diameter -
    (wing_thickness_to_chord_root * wing_center_chord))))) + (2 / 5)) / wing_span)) (h11 : 0 < 2 -
    ((1 - wing_taper_ratio) * (wing_flap_span_ratio + (((2 * (sqrt ((wing_thickness_to_chord_root
    * wing_center_chord) * (fuselage_avg_diameter - (wing_thickness_to_chord_root *
    wing_center_chord))))) + (2 / 5)) / wing_span)))) (h12 : 0 < wing_num_flap_segments) (h13 : 0
    < wing_slat_chord_ratio) (h14 : 0 < wing_slat_span_ratio) (h15 : 0 < 2 - ((1 -
    wing_taper_ratio) * ((99 / 100) + (((2 * (sqrt ((wing_thickness_to_chord_root *
    wing_center_chord) * (fuselage_avg_diameter - (wing_thickness_to_chord_root *
    wing_center_chord))))) + (2 / 5)) / wing_span)))) (h16 : 0 < wing_flap_span_ratio - (((2 *
    (sqrt ((wing_thickness_to_chord_root * wing_center_chord) * (fuselage_avg_diameter -
    (wing_thickness_to_chord_root * wing_center_chord))))) + (2 / 5)) / wing_span)) (h17 : 0 < 2 -
    ((1 - wing_taper_ratio) * (wing_flap_span_ratio + (((2 * (sqrt ((wing_thickness_to_chord_root
    * wing_center_chord) * (fuselage_avg_diameter - (wing_thickness_to_chord_root *
    wing_center_chord))))) + (2 / 5)) / wing_span)))) (h18 : 0 < 2 - ((1 - wing_taper_ratio) *
    ((99 / 100) + (((2 * (sqrt ((wing_thickness_to_chord_root * wing_center_chord) *
    (fuselage_avg_diameter - (wing_thickness_to_chord_root * wing_center_chord))))) + (2 / 5)) /
    wing_span)))) :
    HasDerivAt (fun t => out_wing_high_lift_mass wing_num_flap_segments sea_level_density wing_high_lift_mass_coefficient wing_area wing_slat_chord_ratio wing_flap_chord_ratio t wing_flap_span_ratio wing_slat_span_ratio design_wing_loading wing_thickness_to_chord_root wing_span fuselage_avg_diameter wing_center_chord landing_lift_coefficient_max) (J_wing_high_lift_mass__wing_taper_ratio wing_num_flap_segments sea_level_density wing_high_lift_mass_coefficient wing_area wing_slat_chord_ratio wing_flap_chord_ratio wing_taper_ratio wing_flap_span_ratio wing_slat_span_ratio design_wing_loading wing_thickness_to_chord_root wing_span fuselage_avg_diameter wing_center_chord landing_lift_coefficient_max) wing_taper_ratio := by
  have hf10 : 0 < wing_flap_span_ratio - (body_to_span_ratio wing_thickness_to_chord_root wing_span fuselage_avg_diameter wing_center_chord) := by simp only [dsle_dtr, sle_2, dsflap_dtr, sflap_2, body_to_span_ratio_2, u1, vflap_2, u2, wled, sle, sflap, body_to_span_ratio, vflap, vstall]; exact h10
  have hf11 : 0 < 2 - ((1 - wing_taper_ratio) * (wing_flap_span_ratio + (body_to_span_ratio wing_thickness_to_chord_root wing_span fuselage_avg_diameter wing_center_chord))) := by simp only [dsle_dtr, sle_2, dsflap_dtr, sflap_2, body_to_span_ratio_2, u1, vflap_2, u2, wled, sle, sflap, body_to_span_ratio, vflap, vstall]; exact h11
  have hf15 : 0 < 2 - ((1 - wing_taper_ratio) * ((99 / 100) + (body_to_span_ratio wing_thickness_to_chord_root wing_span fuselage_avg_diameter wing_center_chord))) := by simp only [dsle_dtr, sle_2, dsflap_dtr, sflap_2, body_to_span_ratio_2, u1, vflap_2, u2, wled, sle, sflap, body_to_span_ratio, vflap, vstall]; exact h15
  have hf16 : 0 < wing_flap_span_ratio - (body_to_span_ratio_2 wing_thickness_to_chord_root wing_span fuselage_avg_diameter wing_center_chord) := by simp only [dsle_dtr, sle_2, dsflap_dtr, sflap_2, body_to_span_ratio_2, u1, vflap_2, u2, wled, sle, sflap, body_to_span_ratio, vflap, vstall]; exact h16
  have hf17 : 0 < 2 - ((1 - wing_taper_ratio) * (wing_flap_span_ratio + (body_to_span_ratio_2 wing_thickness_to_chord_root wing_span fuselage_avg_diameter wing_center_chord))) := by simp only [dsle_dtr, sle_2, dsflap_dtr, sflap_2, body_to_span_ratio_2, u1, vflap_2, u2, wled, sle, sflap, body_to_span_ratio, vflap, vstall]; exact h17
  have hf18 : 0 < 2 - ((1 - wing_taper_ratio) * ((99 / 100) + (body_to_span_ratio_2 wing_thickness_to_chord_root wing_span fuselage_avg_diameter wing_center_chord))) := by simp only [dsle_dtr, sle_2, dsflap_dtr, sflap_2, body_to_span_ratio_2, u1, vflap_2, u2, wled, sle, sflap, body_to_span_ratio, vflap, vstall]; exact h18
  have hp0 : 0 < sle wing_area wing_slat_chord_ratio wing_taper_ratio wing_slat_span_ratio wing_thickness_to_chord_root wing_span fuselage_avg_diameter wing_center_chord := by simp only [dsle_dtr, sle_2, dsflap_dtr, sflap_2, body_to_span_ratio_2, u1, vflap_2, u2, wled, sle, sflap, body_to_span_ratio, vflap, vstall]; comp_side
  have hp1 : 0 < vflap sea_level_density design_wing_loading landing_lift_coefficient_max := by simp only [dsle_dtr, sle_2, dsflap_dtr, sflap_2, body_to_span_ratio_2, u1, vflap_2, u2, wled, sle, sflap, body_to_span_ratio, vflap, vstall]; comp_side
  have hp2 : 0 < sflap wing_area wing_flap_chord_ratio wing_taper_ratio wing_flap_span_ratio wing_thickness_to_chord_root wing_span fuselage_avg_diameter wing_center_chord := by simp only [dsle_dtr, sle_2, dsflap_dtr, sflap_2, body_to_span_ratio_2, u1, vflap_2, u2, wled, sle, sflap, body_to_span_ratio, vflap, vstall]; comp_side
  have hp3 : 0 < vflap_2 sea_level_density design_wing_loading landing_lift_coefficient_max := by simp only [dsle_dtr, sle_2, dsflap_dtr, sflap_2, body_to_span_ratio_2, u1, vflap_2, u2, wled, sle, sflap, body_to_span_ratio, vflap, vstall]; comp_side
  have hp4 : 0 < sflap_2 wing_area wing_flap_chord_ratio wing_taper_ratio wing_flap_span_ratio wing_thickness_to_chord_root wing_span fuselage_avg_diameter wing_center_chord := by simp only [dsle_dtr, sle_2, dsflap_dtr, sflap_2, body_to_span_ratio_2, u1, vflap_2, u2, wled, sle, sflap, body_to_span_ratio, vflap, vstall]; comp_side
  have hp5 : 0 < sle_2 wing_area wing_slat_chord_ratio wing_taper_ratio wing_slat_span_ratio wing_thickness_to_chord_root wing_span fuselage_avg_diameter wing_center_chord := by simp only [dsle_dtr, sle_2, dsflap_dtr, sflap_2, body_to_span_ratio_2, u1, vflap_2, u2, wled, sle, sflap, body_to_span_ratio, vflap, vstall]; comp_side
  have hp6 : 0 < u2 sea_level_density design_wing_loading landing_lift_coefficient_max := by simp only [dsle_dtr, sle_2, dsflap_dtr, sflap_2, body_to_span_ratio_2, u1, vflap_2, u2, wled, sle, sflap, body_to_span_ratio, vflap, vstall]; comp_side
  have hp7 : 0 < u1 wing_thickness_to_chord_root fuselage_avg_diameter wing_center_chord := by simp only [dsle_dtr, sle_2, dsflap_dtr, sflap_2, body_to_span_ratio_2, u1, vflap_2, u2, wled, sle, sflap, body_to_span_ratio, vflap, vstall]; comp_side
  have e0 : ∀ x : ℝ, 0 < x → x ^ ((113 / 100) : ℝ) = x ^ ((13 / 100) : ℝ) * x ^ 1 := fun x hx => rpow_up hx 1 (by norm_num)
  have e1 : ∀ x : ℝ, 0 < x → x ^ ((119 / 100) : ℝ) = x ^ ((19 / 100) : ℝ) * x ^ 1 := fun x hx => rpow_up hx 1 (by norm_num)
  have e2 : ∀ x : ℝ, 0 < x → x ^ ((119 / 50) : ℝ) = x ^ ((19 / 50) : ℝ) * x ^ 2 := fun x hx => rpow_up hx 2 (by norm_num)
  obtain ⟨D_sflap, hD_sflap, k_sflap⟩ : ∃ D : ℝ, D = (((-((wing_flap_chord_ratio * wing_area) / ((1 + wing_taper_ratio) ^ 2))) * (wing_flap_span_ratio - (body_to_span_ratio wing_thickness_to_chord_root wing_span fuselage_avg_diameter wing_center_chord))) * (2 - ((1 - wing_taper_ratio) * (wing_flap_span_ratio + (body_to_span_ratio wing_thickness_to_chord_root wing_span fuselage_avg_diameter wing_center_chord))))) + ((((wing_flap_chord_ratio * wing_area) / (1 + wing_taper_ratio)) * (wing_flap_span_ratio - (body_to_span_ratio wing_thickness_to_chord_root wing_span fuselage_avg_diameter wing_center_chord))) * (-((-1) * (wing_flap_span_ratio + (body_to_span_ratio wing_thickness_to_chord_root wing_span fuselage_avg_diameter wing_center_chord))))) ∧
      HasDerivAt (fun t => sflap wing_area wing_flap_chord_ratio t wing_flap_span_ratio wing_thickness_to_chord_root wing_span fuselage_avg_diameter wing_center_chord) D wing_taper_ratio := by
    refine ⟨_, rfl, ?_⟩
    simp only [sflap]
    apply hasDerivAt_of_eq; on_goal 1 => (repeat' comp_step)
    all_goals try first | comp_side | (apply HasDerivAt.continuousAt; (repeat' comp_step); all_goals comp_side)
    all_goals try simp (disch := first | assumption | positivity) only [e0, e1, e2, div_mul_eq_div_div, div_half, inv_half]
    all_goals try simp only [mul_zero, zero_mul, add_zero, zero_add, sub_zero, zero_sub, mul_one, one_mul, sub_self]
    all_goals try push_cast
    all_goals comp_eq
  obtain ⟨D_sle, hD_sle, k_sle⟩ : ∃ D : ℝ, D = (((-((wing_slat_chord_ratio * wing_area) / ((1 + wing_taper_ratio) ^ 2))) * wing_slat_span_ratio) * (2 - ((1 - wing_taper_ratio) * ((99 / 100) + (body_to_span_ratio wing_thickness_to_chord_root wing_span fuselage_avg_diameter wing_center_chord))))) + ((((wing_slat_chord_ratio * wing_area) / (1 + wing_taper_ratio)) * wing_slat_span_ratio) * (-((-1) * ((99 / 100) + (body_to_span_ratio wing_thickness_to_chord_root wing_span fuselage_avg_diameter wing_center_chord))))) ∧
      HasDerivAt (fun t => sle wing_area wing_slat_chord_ratio t wing_slat_span_ratio wing_thickness_to_chord_root wing_span fuselage_avg_diameter wing_center_chord) D wing_taper_ratio := by
    refine ⟨_, rfl, ?_⟩
    simp only [sle]
    apply hasDerivAt_of_eq; on_goal 1 => (repeat' comp_step)
    all_goals try first | comp_side | (apply HasDerivAt.continuousAt; (repeat' comp_step); all_goals comp_side)
    all_goals try simp (disch := first | assumption | positivity) only [e0, e1, e2, div_mul_eq_div_div, div_half, inv_half]
    all_goals try simp only [mul_zero, zero_mul, add_zero, zero_add, sub_zero, zero_sub, mul_one, one_mul, sub_self]
    all_goals try push_cast
    all_goals comp_eq
  obtain ⟨D_wled, hD_wled, k_wled⟩ : ∃ D : ℝ, D = (82 / 25) * (((113 / 100) * ((sle wing_area wing_slat_chord_ratio wing_taper_ratio wing_slat_span_ratio wing_thickness_to_chord_root wing_span fuselage_avg_diameter wing_center_chord) ^ ((13 / 100) : ℝ))) * D_sle) ∧
      HasDerivAt (fun t => wled wing_area wing_slat_chord_ratio t wing_slat_span_ratio wing_thickness_to_chord_root wing_span fuselage_avg_diameter wing_center_chord) D wing_taper_ratio := by
    refine ⟨_, rfl, ?_⟩
    simp only [wled]
    apply hasDerivAt_of_eq; on_goal 1 => (repeat' comp_step)
    all_goals try first | comp_side | (apply HasDerivAt.continuousAt; (repeat' comp_step); all_goals comp_side)
    all_goals try simp (disch := first | assumption | positivity) only [e0, e1, e2, div_mul_eq_div_div, div_half, inv_half]
    all_goals try simp only [mul_zero, zero_mul, add_zero, zero_add, sub_zero, zero_sub, mul_one, one_mul, sub_self]
    all_goals try push_cast
    all_goals comp_eq
  have al_sle_2 : sle_2 wing_area wing_slat_chord_ratio wing_taper_ratio wing_slat_span_ratio wing_thickness_to_chord_root wing_span fuselage_avg_diameter wing_center_chord = sle wing_area wing_slat_chord_ratio wing_taper_ratio wing_slat_span_ratio wing_thickness_to_chord_root wing_span fuselage_avg_diameter wing_center_chord := rfl
  have al_sflap_2 : sflap_2 wing_area wing_flap_chord_ratio wing_taper_ratio wing_flap_span_ratio wing_thickness_to_chord_root wing_span fuselage_avg_diameter wing_center_chord = sflap wing_area wing_flap_chord_ratio wing_taper_ratio wing_flap_span_ratio wing_thickness_to_chord_root wing_span fuselage_avg_diameter wing_center_chord := rfl
  have al_body_to_span_ratio_2 : body_to_span_ratio_2 wing_thickness_to_chord_root wing_span fuselage_avg_diameter wing_center_chord = body_to_span_ratio wing_thickness_to_chord_root wing_span fuselage_avg_diameter wing_center_chord := rfl
  have al_vflap_2 : vflap_2 sea_level_density design_wing_loading landing_lift_coefficient_max = vflap sea_level_density design_wing_loading landing_lift_coefficient_max := rfl
  try simp only [out_wing_high_lift_mass, J_wing_high_lift_mass__wing_taper_ratio, dsle_dtr, dsflap_dtr, u1, u2, al_sle_2, al_sflap_2, al_body_to_span_ratio_2, al_vflap_2]
  all_goals (apply hasDerivAt_of_eq; on_goal 1 => (repeat' comp_step))
  all_goals try first | comp_side | (apply HasDerivAt.continuousAt; (repeat' comp_step); all_goals comp_side)
  all_goals try simp only [hD_sflap, hD_sle, hD_wled]
  all_goals try simp (disch := first | assumption | positivity) only [e0, e1, e2, div_mul_eq_div_div, div_half, inv_half]
  all_goals try simp only [mul_zero, zero_mul, add_zero, zero_add, sub_zero, zero_sub, mul_one, one_mul, sub_self]
  all_goals try push_cast
  all_goals comp_eq

theorem d_wing_high_lift_mass__wing_flap_span_ratio (wing_num_flap_segments sea_level_density
    wing_high_lift_mass_coefficient wing_area wing_slat_chord_ratio wing_flap_chord_ratio
    wing_taper_ratio wing_flap_span_ratio wing_slat_span_ratio design_wing_loading
    wing_thickness_to_chord_root wing_span fuselage_avg_diameter wing_center_chord
    landing_lift_coefficient_max : ℝ) (h0 : 0 < sea_level_density) (h1 : 0 <
    landing_lift_coefficient_max) (h2 : 0 < design_wing_loading) (h3 : 0 < wing_taper_ratio) (h4 :
    0 < wing_thickness_to_chord_root) (h5 : 0 < wing_center_chord) (h6 : 0 < fuselage_avg_diameter
    - (wing_thickness_to_chord_root * wing_center_chord)) (h7 : 0 < wing_span) (h8 : 0 <
    wing_flap_chord_ratio) (h9 : 0 < wing_area) (h10 : 0 < wing_flap_span_ratio - (((2 * (sqrt
    ((wing_thickness_to_chord_root * wing_center_chord) * (fuselage_avg_diameter -
    (wing_thickness_to_chord_root * wing_center_chord))))) + (2 / 5)) / wing_span)) (h11 : 0 < 2 -
    ((1 - wing_taper_ratio) * (wing_flap_span_ratio + (((2 * (sqrt ((wing_thickness_to_chord_root
    * wing_center_chord) * (fuselage_avg_diameter - (wing_thickness_to_chord_root *
    wing_center_chord))))) + (2 / 5)) / wing_span)))) (h12 : 0 < wing_num_flap_segments) (h13 : 0
    < wing_slat_chord_ratio) (h14 : 0 < wing_slat_span_ratio) (h15 : 0 < 2 - ((1 -
    wing_taper_ratio) * ((99 / 100) + (((2 * (sqrt ((wing_thickness_to_chord_root *
    wing_center_chord) * (fuselage_avg_diameter - (wing_thickness_to_chord_root *
    wing_center_chord))))) + (2 / 5)) / wing_span)))) (h16 : 0 < wing_flap_span_ratio - (((2 *
    (sqrt ((wing_thickness_to_chord_root * wing_center_chord) * (fuselage_avg_diameter -
    (wing_thickness_to_chord_root * wing_center_chord))))) + (2 / 5)) / wing_span)) (h17 : 0 < 2 -
    ((1 - wing_taper_ratio) * (wing_flap_span_ratio + (((2 * (sqrt ((wing_thickness_to_chord_root
    * wing_center_chord) * (fuselage_avg_diameter - (wing_thickness_to_chord_root *
    wing_center_chord))))) + (2 / 5)) / wing_span)))) :
    HasDerivAt (fun t => out_wing_high_lift_mass wing_num_flap_segments sea_level_density wing_high_lift_mass_coefficient wing_area wing_slat_chord_ratio wing_flap_chord_ratio wing_taper_ratio t wing_slat_span_ratio design_wing_loading wing_thickness_to_chord_root wing_span fuselage_avg_diameter wing_center_chord landing_lift_coefficient_max) (J_wing_high_lift_mass__wing_flap_span_ratio wing_num_flap_segments sea_level_density wing_high_lift_mass_coefficient wing_area wing_flap_chord_ratio wing_taper_ratio wing_flap_span_ratio design_wing_loading wing_thickness_to_chord_root wing_span fuselage_avg_diameter wing_center_chord landing_lift_coefficient_max) wing_flap_span_ratio := by
  have hf10 : 0 < wing_flap_span_ratio - (body_to_span_ratio wing_thickness_to_chord_root wing_span fuselage_avg_diameter wing_center_chord) := by simp only [dsflap_dfsr, sflap_2, body_to_span_ratio_2, u1, vflap_2, u2, wled, sle, sflap, body_to_span_ratio, vflap, vstall]; exact h10
  have hf11 : 0 < 2 - ((1 - wing_taper_ratio) * (wing_flap_span_ratio + (body_to_span_ratio wing_thickness_to_chord_root wing_span fuselage_avg_diameter wing_center_chord))) := by simp only [dsflap_dfsr, sflap_2, body_to_span_ratio_2, u1, vflap_2, u2, wled, sle, sflap, body_to_span_ratio, vflap, vstall]; exact h11
  have hf15 : 0 < 2 - ((1 - wing_taper_ratio) * ((99 / 100) + (body_to_span_ratio wing_thickness_to_chord_root wing_span fuselage_avg_diameter wing_center_chord))) := by simp only [dsflap_dfsr, sflap_2, body_to_span_ratio_2, u1, vflap_2, u2, wled, sle, sflap, body_to_span_ratio, vflap, vstall]; exact h15
  have hf16 : 0 < wing_flap_span_ratio - (body_to_span_ratio_2 wing_thickness_to_chord_root wing_span fuselage_avg_diameter wing_center_chord) := by simp only [dsflap_dfsr, sflap_2, body_to_span_ratio_2, u1, vflap_2, u2, wled, sle, sflap, body_to_span_ratio, vflap, vstall]; exact h16
  have hf17 : 0 < 2 - ((1 - wing_taper_ratio) * (wing_flap_span_ratio + (body_to_span_ratio_2 wing_thickness_to_chord_root wing_span fuselage_avg_diameter wing_center_chord))) := by simp only [dsflap_dfsr, sflap_2, body_to_span_ratio_2, u1, vflap_2, u2, wled, sle, sflap, body_to_span_ratio, vflap, vstall]; exact h17
  have hp0 : 0 < sle wing_area wing_slat_chord_ratio wing_taper_ratio wing_slat_span_ratio wing_thickness_to_chord_root wing_span fuselage_avg_diameter wing_center_chord := by simp only [dsflap_dfsr, sflap_2, body_to_span_ratio_2, u1, vflap_2, u2, wled, sle, sflap, body_to_span_ratio, vflap, vstall]; comp_side
  have hp1 : 0 < vflap sea_level_density design_wing_loading landing_lift_coefficient_max := by simp only [dsflap_dfsr, sflap_2, body_to_span_ratio_2, u1, vflap_2, u2, wled, sle, sflap, body_to_span_ratio, vflap, vstall]; comp_side
  have hp2 : 0 < sflap wing_area wing_flap_chord_ratio wing_taper_ratio wing_flap_span_ratio wing_thickness_to_chord_root wing_span fuselage_avg_diameter wing_center_chord := by simp only [dsflap_dfsr, sflap_2, body_to_span_ratio_2, u1, vflap_2, u2, wled, sle, sflap, body_to_span_ratio, vflap, vstall]; comp_side
  have hp3 : 0 < vflap_2 sea_level_density design_wing_loading landing_lift_coefficient_max := by simp only [dsflap_dfsr, sflap_2, body_to_span_ratio_2, u1, vflap_2, u2, wled, sle, sflap, body_to_span_ratio, vflap, vstall]; comp_side
  have hp4 : 0 < sflap_2 wing_area wing_flap_chord_ratio wing_taper_ratio wing_flap_span_ratio wing_thickness_to_chord_root wing_span fuselage_avg_diameter wing_center_chord := by simp only [dsflap_dfsr, sflap_2, body_to_span_ratio_2, u1, vflap_2, u2, wled, sle, sflap, body_to_span_ratio, vflap, vstall]; comp_side
  have hp5 : 0 < u2 sea_level_density design_wing_loading landing_lift_coefficient_max := by simp only [dsflap_dfsr, sflap_2, body_to_span_ratio_2, u1, vflap_2, u2, wled, sle, sflap, body_to_span_ratio, vflap, vstall]; comp_side
  have hp6 : 0 < u1 wing_thickness_to_chord_root fuselage_avg_diameter wing_center_chord := by simp only [dsflap_dfsr, sflap_2, body_to_span_ratio_2, u1, vflap_2, u2, wled, sle, sflap, body_to_span_ratio, vflap, vstall]; comp_side
  have e0 : ∀ x : ℝ, 0 < x → x ^ ((113 / 100) : ℝ) = x ^ ((13 / 100) : ℝ) * x ^ 1 := fun x hx => rpow_up hx 1 (by norm_num)
  have e1 : ∀ x : ℝ, 0 < x → x ^ ((119 / 100) : ℝ) = x ^ ((19 / 100) : ℝ) * x ^ 1 := fun x hx => rpow_up hx 1 (by norm_num)
  have e2 : ∀ x : ℝ, 0 < x → x ^ ((119 / 50) : ℝ) = x ^ ((19 / 50) : ℝ) * x ^ 2 := fun x hx => rpow_up hx 2 (by norm_num)
  obtain ⟨D_sflap, hD_sflap, k_sflap⟩ : ∃ D : ℝ, D = (((wing_flap_chord_ratio * wing_area) / (1 + wing_taper_ratio)) * (2 - ((1 - wing_taper_ratio) * (wing_flap_span_ratio + (body_to_span_ratio wing_thickness_to_chord_root wing_span fuselage_avg_diameter wing_center_chord))))) + ((((wing_flap_chord_ratio * wing_area) / (1 + wing_taper_ratio)) * (wing_flap_span_ratio - (body_to_span_ratio wing_thickness_to_chord_root wing_span fuselage_avg_diameter wing_center_chord))) * (-(1 - wing_taper_ratio))) ∧
      HasDerivAt (fun t => sflap wing_area wing_flap_chord_ratio wing_taper_ratio t wing_thickness_to_chord_root wing_span fuselage_avg_diameter wing_center_chord) D wing_flap_span_ratio := by
    refine ⟨_, rfl, ?_⟩
    simp only [sflap]
    apply hasDerivAt_of_eq; on_goal 1 => (repeat' comp_step)
    all_goals try first | comp_side | (apply HasDerivAt.continuousAt; (repeat' comp_step); all_goals comp_side)
    all_goals try simp (disch := first | assumption | positivity) only [e0, e1, e2, div_mul_eq_div_div, div_half, inv_half]
    all_goals try simp only [mul_zero, zero_mul, add_zero, zero_add, sub_zero, zero_sub, mul_one, one_mul, sub_self]
    all_goals try push_cast
    all_goals comp_eq
  have al_sflap_2 : sflap_2 wing_area wing_flap_chord_ratio wing_taper_ratio wing_flap_span_ratio wing_thickness_to_chord_root wing_span fuselage_avg_diameter wing_center_chord = sflap wing_area wing_flap_chord_ratio wing_taper_ratio wing_flap_span_ratio wing_thickness_to_chord_root wing_span fuselage_avg_diameter wing_center_chord := rfl
  have al_body_to_span_ratio_2 : body_to_span_ratio_2 wing_thickness_to_chord_root wing_span fuselage_avg_diameter wing_center_chord = body_to_span_ratio wing_thickness_to_chord_root wing_span fuselage_avg_diameter wing_center_chord := rfl
  have al_vflap_2 : vflap_2 sea_level_density design_wing_loading landing_lift_coefficient_max = vflap sea_level_density design_wing_loading landing_lift_coefficient_max := rfl
  try simp only [out_wing_high_lift_mass, J_wing_high_lift_mass__wing_flap_span_ratio, dsflap_dfsr, u1, u2, al_sflap_2, al_body_to_span_ratio_2, al_vflap_2]
  all_goals (apply hasDerivAt_of_eq; on_goal 1 => (repeat' comp_step))
  all_goals try first | comp_side | (apply HasDerivAt.continuousAt; (repeat' comp_step); all_goals comp_side)
  all_goals try simp only [hD_sflap]
  all_goals try simp (disch := first | assumption | positivity) only [e0, e1, e2, div_mul_eq_div_div, div_half, inv_half]
  all_goals try simp only [mul_zero, zero_mul, add_zero, zero_add, sub_zero, zero_sub, mul_one, one_mul, sub_self]
  all_goals try push_cast
  all_goals comp_eq

theorem d_wing_high_lift_mass__wing_slat_span_ratio (wing_num_flap_segments sea_level_density
    wing_high_lift_mass_coefficient wing_area wing_slat_chord_ratio wing_flap_chord_ratio
    wing_taper_ratio wing_flap_span_ratio wing_slat_span_ratio design_wing_loading
    wing_thickness_to_chord_root wing_span fuselage_avg_diameter wing_center_chord
    landing_lift_coefficient_max : ℝ) (h0 : 0 < sea_level_density) (h1 : 0 <
    landing_lift_coefficient_max) (h2 : 0 < design_wing_loading) (h3 : 0 < wing_taper_ratio) (h4 :
    0 < wing_thickness_to_chord_root) (h5 : 0 < wing_center_chord) (h6 : 0 < fuselage_avg_diameter
    - (wing_thickness_to_chord_root * wing_center_chord)) (h7 : 0 < wing_span) (h8 : 0 <
    wing_flap_chord_ratio) (h9 : 0 < wing_area) (h10 : 0 < wing_flap_span_ratio - (((2 * (sqrt
    ((wing_thickness_to_chord_root * wing_center_chord) * (fuselage_avg_diameter -
    (wing_thickness_to_chord_root * wing_center_chord))))) + (2 / 5)) / wing_span)) (h11 : 0 < 2 -
    ((1 - wing_taper_ratio) * (wing_flap_span_ratio + (((2 * (sqrt ((wing_thickness_to_chord_root
    * wing_center_chord) * (fuselage_avg_diameter - (wing_thickness_to_chord_root *
    wing_center_chord))))) + (2 / 5)) / wing_span)))) (h12 : 0 < wing_num_flap_segments) (h13 : 0
    < wing_slat_chord_ratio) (h14 : 0 < wing_slat_span_ratio) (h15 : 0 < 2 - ((1 -
    wing_taper_ratio) * ((99 / 100) + (((2 * (sqrt ((wing_thickness_to_chord_root *
    wing_center_chord) * (fuselage_avg_diameter - (wing_thickness_to_chord_root *
    wing_center_chord))))) + (2 / 5)) / wing_span)))) (h16 : 0 < 2 - ((1 - wing_taper_ratio) *
    ((99 / 100) + (((2 * (sqrt ((wing_thickness_to_chord_root * wing_center_chord) *
    (fuselage_avg_diameter - (wing_thickness_to_chord_root * wing_center_chord))))) + (2 / 5)) /
    wing_span)))) :
    HasDerivAt (fun t => out_wing_high_lift_mass wing_num_flap_segments sea_level_density wing_high_lift_mass_coefficient wing_area wing_slat_chord_ratio wing_flap_chord_ratio wing_taper_ratio wing_flap_span_ratio t design_wing_loading wing_thickness_to_chord_root wing_span fuselage_avg_diameter wing_center_chord landing_lift_coefficient_max) (J_wing_high_lift_mass__wing_slat_span_ratio wing_area wing_slat_chord_ratio wing_taper_ratio wing_slat_span_ratio wing_thickness_to_chord_root wing_span fuselage_avg_diameter wing_center_chord) wing_slat_span_ratio := by
  have hf10 : 0 < wing_flap_span_ratio - (body_to_span_ratio wing_thickness_to_chord_root wing_span fuselage_avg_diameter wing_center_chord) := by simp only [dsle_dssr, sle_2, body_to_span_ratio_2, u1, wled, sle, sflap, body_to_span_ratio, vflap, vstall]; exact h10
  have hf11 : 0 < 2 - ((1 - wing_taper_ratio) * (wing_flap_span_ratio + (body_to_span_ratio wing_thickness_to_chord_root wing_span fuselage_avg_diameter wing_center_chord))) := by simp only [dsle_dssr, sle_2, body_to_span_ratio_2, u1, wled, sle, sflap, body_to_span_ratio, vflap, vstall]; exact h11
  have hf15 : 0 < 2 - ((1 - wing_taper_ratio) * ((99 / 100) + (body_to_span_ratio wing_thickness_to_chord_root wing_span fuselage_avg_diameter wing_center_chord))) := by simp only [dsle_dssr, sle_2, body_to_span_ratio_2, u1, wled, sle, sflap, body_to_span_ratio, vflap, vstall]; exact h15
  have hf16 : 0 < 2 - ((1 - wing_taper_ratio) * ((99 / 100) + (body_to_span_ratio_2 wing_thickness_to_chord_root wing_span fuselage_avg_diameter wing_center_chord))) := by simp only [dsle_dssr, sle_2, body_to_span_ratio_2, u1, wled, sle, sflap, body_to_span_ratio, vflap, vstall]; exact h16
  have hp0 : 0 < sle wing_area wing_slat_chord_ratio wing_taper_ratio wing_slat_span_ratio wing_thickness_to_chord_root wing_span fuselage_avg_diameter wing_center_chord := by simp only [dsle_dssr, sle_2, body_to_span_ratio_2, u1, wled, sle, sflap, body_to_span_ratio, vflap, vstall]; comp_side
  have hp1 : 0 < vflap sea_level_density design_wing_loading landing_lift_coefficient_max := by simp only [dsle_dssr, sle_2, body_to_span_ratio_2, u1, wled, sle, sflap, body_to_span_ratio, vflap, vstall]; comp_side
  have hp2 : 0 < sflap wing_area wing_flap_chord_ratio wing_taper_ratio wing_flap_span_ratio wing_thickness_to_chord_root wing_span fuselage_avg_diameter wing_center_chord := by simp only [dsle_dssr, sle_2, body_to_span_ratio_2, u1, wled, sle, sflap, body_to_span_ratio, vflap, vstall]; comp_side
  have hp3 : 0 < sle_2 wing_area wing_slat_chord_ratio wing_taper_ratio wing_slat_span_ratio wing_thickness_to_chord_root wing_span fuselage_avg_diameter wing_center_chord := by simp only [dsle_dssr, sle_2, body_to_span_ratio_2, u1, wled, sle, sflap, body_to_span_ratio, vflap, vstall]; comp_side
  have hp4 : 0 < u1 wing_thickness_to_chord_root fuselage_avg_diameter wing_center_chord := by simp only [dsle_dssr, sle_2, body_to_span_ratio_2, u1, wled, sle, sflap, body_to_span_ratio, vflap, vstall]; comp_side
  have e0 : ∀ x : ℝ, 0 < x → x ^ ((113 / 100) : ℝ) = x ^ ((13 / 100) : ℝ) * x ^ 1 := fun x hx => rpow_up hx 1 (by norm_num)
  have e1 : ∀ x : ℝ, 0 < x → x ^ ((119 / 100) : ℝ) = x ^ ((19 / 100) : ℝ) * x ^ 1 := fun x hx => rpow_up hx 1 (by norm_num)
  have e2 : ∀ x : ℝ, 0 < x → x ^ ((119 / 50) : ℝ) = x ^ ((19 / 50) : ℝ) * x ^ 2 := fun x hx => rpow_up hx 2 (by norm_num)
  obtain ⟨D_sle, hD_sle, k_sle⟩ : ∃ D : ℝ, D = ((wing_slat_chord_ratio * wing_area) / (1 + wing_taper_ratio)) * (2 - ((1 - wing_taper_ratio) * ((99 / 100) + (body_to_span_ratio wing_thickness_to_chord_root wing_span fuselage_avg_diameter wing_center_chord)))) ∧
      HasDerivAt (fun t => sle wing_area wing_slat_chord_ratio wing_taper_ratio t wing_thickness_to_chord_root wing_span fuselage_avg_diameter wing_center_chord) D wing_slat_span_ratio := by
    refine ⟨_, rfl, ?_⟩
    simp only [sle]
    apply hasDerivAt_of_eq; on_goal 1 => (repeat' comp_step)
    all_goals try first | comp_side | (apply HasDerivAt.continuousAt; (repeat' comp_step); all_goals comp_side)
    all_goals try simp (disch := first | assumption | positivity) only [e0, e1, e2, div_mul_eq_div_div, div_half, inv_half]
    all_goals try simp only [mul_zero, zero_mul, add_zero, zero_add, sub_zero, zero_sub, mul_one, one_mul, sub_self]
    all_goals try push_cast
    all_goals comp_eq
  obtain ⟨D_wled, hD_wled, k_wled⟩ : ∃ D : ℝ, D = (82 / 25) * (((113 / 100) * ((sle wing_area wing_slat_chord_ratio wing_taper_ratio wing_slat_span_ratio wing_thickness_to_chord_root wing_span fuselage_avg_diameter wing_center_chord) ^ ((13 / 100) : ℝ))) * D_sle) ∧
      HasDerivAt (fun t => wled wing_area wing_slat_chord_ratio wing_taper_ratio t wing_thickness_to_chord_root wing_span fuselage_avg_diameter wing_center_chord) D wing_slat_span_ratio := by
    refine ⟨_, rfl, ?_⟩
    simp only [wled]
    apply hasDerivAt_of_eq; on_goal 1 => (repeat' comp_step)
    all_goals try first | comp_side | (apply HasDerivAt.continuousAt; (repeat' comp_step); all_goals comp_side)
    all_goals try simp (disch := first | assumption | positivity) only [e0, e1, e2, div_mul_eq_div_div, div_half, inv_half]
    all_goals try simp only [mul_zero, zero_mul, add_zero, zero_add, sub_zero, zero_sub, mul_one, one_mul, sub_self]
    all_goals try push_cast
    all_goals comp_eq
  have al_sle_2 : sle_2 wing_area wing_slat_chord_ratio wing_taper_ratio wing_slat_span_ratio wing_thickness_to_chord_root wing_span fuselage_avg_diameter wing_center_chord = sle wing_area wing_slat_chord_ratio wing_taper_ratio wing_slat_span_ratio wing_thickness_to_chord_root wing_span fuselage_avg_diameter wing_center_chord := rfl
  have al_body_to_span_ratio_2 : body_to_span_ratio_2 wing_thickness_to_chord_root wing_span fuselage_avg_diameter wing_center_chord = body_to_span_ratio wing_thickness_to_chord_root wing_span fuselage_avg_diameter wing_center_chord := rfl
  try simp only [out_wing_high_lift_mass, J_wing_high_lift_mass__wing_slat_span_ratio, dsle_dssr, u1, al_sle_2, al_body_to_span_ratio_2]
  all_goals (apply hasDerivAt_of_eq; on_goal 1 => (repeat' comp_step))
  all_goals try first | comp_side | (apply HasDerivAt.continuousAt; (repeat' comp_step); all_goals comp_side)
  all_goals try simp only [hD_sle, hD_wled]
  all_goals try simp (disch := first | assumption | positivity) only [e0, e1, e2, div_mul_eq_div_div, div_half, inv_half]
  all_goals try simp only [mul_zero, zero_mul, add_zero, zero_add, sub_zero, zero_sub, mul_one, one_mul, sub_self]
  all_goals try push_cast
  all_goals comp_eq

theorem d_wing_high_lift_mass__design_wing_loading (wing_num_flap_segments sea_level_density
    wing_high_lift_mass_coefficient wing_area wing_slat_chord_ratio wing_flap_chord_ratio
    wing_taper_ratio wing_flap_span_ratio wing_slat_span_ratio design_wing_loading
    wing_thickness_to_chord_root wing_span fuselage_avg_diameter wing_center_chord
    landing_lift_coefficient_max : ℝ) (h0 : 0 < sea_level_density) (h1 : 0 <
    landing_lift_coefficient_max) (h2 : 0 < design_wing_loading) (h3 : 0 < wing_taper_ratio) (h4 :
    0 < wing_thickness_to_chord_root) (h5 : 0 < wing_center_chord) (h6 : 0 < fuselage_avg_diameter
    - (wing_thickness_to_chord_root * wing_center_chord)) (h7 : 0 < wing_span) (h8 : 0 <
    wing_flap_chord_ratio) (h9 : 0 < wing_area) (h10 : 0 < wing_flap_span_ratio - (((2 * (sqrt
    ((wing_thickness_to_chord_root * wing_center_chord) * (fuselage_avg_diameter -
    (wing_thickness_to_chord_root * wing_center_chord))))) + (2 / 5)) / wing_span)) (h11 : 0 < 2 -
    ((1 - wing_taper_ratio) * (wing_flap_span_ratio + (((2 * (sqrt ((wing_thickness_to_chord_root
    * wing_center_chord) * (fuselage_avg_diameter - (wing_thickness_to_chord_root *
    wing_center_chord))))) + (2 / 5)) / wing_span)))) (h12 : 0 < wing_num_flap_segments) (h13 : 0
    < wing_slat_chord_ratio) (h14 : 0 < wing_slat_span_ratio) (h15 : 0 < 2 - ((1 -
    wing_taper_ratio) * ((99 / 100) + (((2 * (sqrt ((wing_thickness_to_chord_root *
    wing_center_chord) * (fuselage_avg_diameter - (wing_thickness_to_chord_root *
    wing_center_chord))))) + (2 / 5)) / wing_span)))) (h16 : 0 < wing_flap_span_ratio - (((2 *
    (sqrt ((wing_thickness_to_chord_root * wing_center_chord) * (fuselage_avg_diameter -
    (wing_thickness_to_chord_root * wing_center_chord))))) + (2 / 5)) / wing_span)) (h17 : 0 < 2 -
    ((1 - wing_taper_ratio) * (wing_flap_span_ratio + (((2 * (sqrt ((wing_thickness_to_chord_root
    * wing_center_chord) * (fuselage_avg_diameter - (wing_thickness_to_chord_root *
    wing_center_chord))))) + (2 / 5)) / wing_span)))) :
    HasDerivAt (fun t => out_wing_high_lift_mass wing_num_flap_segments sea_level_density wing_high_lift_mass_coefficient wing_area wing_slat_chord_ratio wing_flap_chord_ratio wing_taper_ratio wing_flap_span_ratio wing_slat_span_ratio t wing_thickness_to_chord_root wing_span fuselage_avg_diameter wing_center_chord landing_lift_coefficient_max) (J_wing_high_lift_mass__design_wing_loading wing_num_flap_segments sea_level_density wing_high_lift_mass_coefficient wing_area wing_flap_chord_ratio wing_taper_ratio wing_flap_span_ratio design_wing_loading wing_thickness_to_chord_root wing_span fuselage_avg_diameter wing_center_chord landing_lift_coefficient_max) design_wing_loading := by
  have e0 : ∀ x : ℝ, 0 < x → x ^ ((113 / 100) : ℝ) = x ^ ((13 / 100) : ℝ) * x ^ 1 := fun x hx => rpow_up hx 1 (by norm_num)
  have e1 : ∀ x : ℝ, 0 < x → x ^ ((119 / 100) : ℝ) = x ^ ((19 / 100) : ℝ) * x ^ 1 := fun x hx => rpow_up hx 1 (by norm_num)
  have e2 : ∀ x : ℝ, 0 < x → x ^ ((69 / 50) : ℝ) = x ^ ((19 / 50) : ℝ) * x ^ 1 := fun x hx => rpow_up hx 1 (by norm_num)
  have e3 : ∀ x : ℝ, 0 < x → x ^ ((119 / 50) : ℝ) = x ^ ((19 / 50) : ℝ) * x ^ 2 := fun x hx => rpow_up hx 2 (by norm_num)
  simp only [out_wing_high_lift_mass, J_wing_high_lift_mass__design_wing_loading, sflap_2, body_to_span_ratio_2, u1, dvflap_dwl, vflap_2, u2, wled, sle, sflap, body_to_span_ratio, vflap, vstall, sqrt_eq_rpow]
  (apply hasDerivAt_of_eq; on_goal 1 => (repeat' comp_step))
  all_goals try comp_side
  all_goals try simp (disch := first | assumption | positivity) only [mul_rpow, div_rpow, e0, e1, e2, e3, div_mul_eq_div_div, div_half, inv_half]
  all_goals try simp only [mul_zero, zero_mul, add_zero, zero_add, sub_zero, zero_sub, mul_one, one_mul]
  all_goals try push_cast
  all_goals comp_eq

theorem d_wing_high_lift_mass__landing_lift_coefficient_max (wing_num_flap_segments
    sea_level_density wing_high_lift_mass_coefficient wing_area wing_slat_chord_ratio
    wing_flap_chord_ratio wing_taper_ratio wing_flap_span_ratio wing_slat_span_ratio
    design_wing_loading wing_thickness_to_chord_root wing_span fuselage_avg_diameter
    wing_center_chord landing_lift_coefficient_max : ℝ) (h0 : 0 < sea_level_density) (h1 : 0 <
    landing_lift_coefficient_max) (h2 : 0 < design_wing_loading) (h3 : 0 < wing_taper_ratio) (h4 :
    0 < wing_thickness_to_chord_root) (h5 : 0 < wing_center_chord) (h6 : 0 < fuselage_avg_diameter
    - (wing_thickness_to_chord_root * wing_center_chord)) (h7 : 0 < wing_span) (h8 : 0 <
    wing_flap_chord_ratio) (h9 : 0 < wing_area) (h10 : 0 < wing_flap_span_ratio - (((2 * (sqrt
    ((wing_thickness_to_chord_root * wing_center_chord) * (fuselage_avg_diameter -
    (wing_thickness_to_chord_root * wing_center_chord))))) + (2 / 5)) / wing_span)) (h11 : 0 < 2 -
    ((1 - wing_taper_ratio) * (wing_flap_span_ratio + (((2 * (sqrt ((wing_thickness_to_chord_root
    * wing_center_chord) * (fuselage_avg_diameter - (wing_thickness_to_chord_root *
    wing_center_chord))))) + (2 / 5)) / wing_span)))) (h12 : 0 < wing_num_flap_segments) (h13 : 0
    < wing_slat_chord_ratio) (h14 : 0 < wing_slat_span_ratio) (h15 : 0 < 2 - ((1 -
    wing_taper_ratio) * ((99 / 100) + (((2 * (sqrt ((wing_thickness_to_chord_root *
    wing_center_chord) * (fuselage_avg_diameter - (wing_thickness_to_chord_root *
    wing_center_chord))))) + (2 / 5)) / wing_span)))) (h16 : 0 < wing_flap_span_ratio - (((2 *
    (sqrt ((wing_thickness_to_chord_root * wing_center_chord) * (fuselage_avg_diameter -
    (wing_thickness_to_chord_root * wing_center_chord))))) + (2 / 5)) / wing_span)) (h17 : 0 < 2 -
    ((1 - wing_taper_ratio) * (wing_flap_span_ratio + (((2 * (sqrt ((wing_thickness_to_chord_root
    * wing_center_chord) * (fuselage_avg_diameter - (wing_thickness_to_chord_root *
    wing_center_chord))))) + (2 / 5)) / wing_span)))) :
    HasDerivAt (fun t => out_wing_high_lift_mass wing_num_flap_segments sea_level_density wing_high_lift_mass_coefficient wing_area wing_slat_chord_ratio wing_flap_chord_ratio wing_taper_ratio wing_flap_span_ratio wing_slat_span_ratio design_wing_loading wing_thickness_to_chord_root wing_span fuselage_avg_diameter wing_center_chord t) (J_wing_high_lift_mass__landing_lift_coefficient_max wing_num_flap_segments sea_level_density wing_high_lift_mass_coefficient wing_area wing_flap_chord_ratio wing_taper_ratio wing_flap_span_ratio design_wing_loading wing_thickness_to_chord_root wing_span fuselage_avg_diameter wing_center_chord landing_lift_coefficient_max) landing_lift_coefficient_max := by
  have e0 : ∀ x : ℝ, 0 < x → x ^ ((113 / 100) : ℝ) = x ^ ((13 / 100) : ℝ) * x ^ 1 := fun x hx => rpow_up hx 1 (by norm_num)
  have e1 : ∀ x : ℝ, 0 < x → x ^ ((119 / 100) : ℝ) = x ^ ((19 / 100) : ℝ) * x ^ 1 := fun x hx => rpow_up hx 1 (by norm_num)
  have e2 : ∀ x : ℝ, 0 < x → x ^ ((69 / 50) : ℝ) = x ^ ((19 / 50) : ℝ) * x ^ 1 := fun x hx => rpow_up hx 1 (by norm_num)
  have e3 : ∀ x : ℝ, 0 < x → x ^ ((119 / 50) : ℝ) = x ^ ((19 / 50) : ℝ) * x ^ 2 := fun x hx => rpow_up hx 2 (by norm_num)
  simp only [out_wing_high_lift_mass, J_wing_high_lift_mass__landing_lift_coefficient_max, sflap_2, body_to_span_ratio_2, u1, dvflap_dcmfl, vflap_2, u2, wled, sle, sflap, body_to_span_ratio, vflap, vstall, sqrt_eq_rpow]
  (apply hasDerivAt_of_eq; on_goal 1 => (repeat' comp_step))
  all_goals try comp_side
  all_goals try simp (disch := first | assumption | positivity) only [mul_rpow, div_rpow, e0, e1, e2, e3, div_mul_eq_div_div, div_half, inv_half]
  all_goals try simp only [mul_zero, zero_mul, add_zero, zero_add, sub_zero, zero_sub, mul_one, one_mul]
  all_goals try push_cast
  all_goals comp_eq

/-- Partial derivatives of `HighLiftMass` that are proved correct (the rest is listed in the header). -/
theorem partials_partial (wing_num_flap_segments sea_level_density wing_high_lift_mass_coefficient
    wing_area wing_slat_chord_ratio wing_flap_chord_ratio wing_taper_ratio wing_flap_span_ratio
    wing_slat_span_ratio design_wing_loading wing_thickness_to_chord_root wing_span
    fuselage_avg_diameter wing_center_chord landing_lift_coefficient_max : ℝ) (h0 : 0 <
    wing_taper_ratio) (h1 : 0 < wing_thickness_to_chord_root) (h2 : 0 < wing_center_chord) (h3 : 0
    < fuselage_avg_diameter - (wing_thickness_to_chord_root * wing_center_chord)) (h4 : 0 <
    wing_span) (h5 : 0 < wing_slat_chord_ratio) (h6 : 0 < wing_area) (h7 : 0 <
    wing_slat_span_ratio) (h8 : 0 < 2 - ((1 - wing_taper_ratio) * ((99 / 100) + (((2 * (sqrt
    ((wing_thickness_to_chord_root * wing_center_chord) * (fuselage_avg_diameter -
    (wing_thickness_to_chord_root * wing_center_chord))))) + (2 / 5)) / wing_span)))) (h9 : 0 <
    sea_level_density) (h10 : 0 < landing_lift_coefficient_max) (h11 : 0 < design_wing_loading)
    (h12 : 0 < wing_flap_chord_ratio) (h13 : 0 < wing_flap_span_ratio - (((2 * (sqrt
    ((wing_thickness_to_chord_root * wing_center_chord) * (fuselage_avg_diameter -
    (wing_thickness_to_chord_root * wing_center_chord))))) + (2 / 5)) / wing_span)) (h14 : 0 < 2 -
    ((1 - wing_taper_ratio) * (wing_flap_span_ratio + (((2 * (sqrt ((wing_thickness_to_chord_root
    * wing_center_chord) * (fuselage_avg_diameter - (wing_thickness_to_chord_root *
    wing_center_chord))))) + (2 / 5)) / wing_span)))) (h15 : 0 < wing_num_flap_segments) :
    HasDerivAt (fun t => out_slat_mass t wing_slat_chord_ratio wing_taper_ratio wing_slat_span_ratio
      wing_thickness_to_chord_root wing_span fuselage_avg_diameter wing_center_chord)
      (J_slat_mass__wing_area wing_area wing_slat_chord_ratio wing_taper_ratio
      wing_slat_span_ratio wing_thickness_to_chord_root wing_span fuselage_avg_diameter
      wing_center_chord) wing_area ∧
    HasDerivAt (fun t => out_slat_mass wing_area t wing_taper_ratio wing_slat_span_ratio
      wing_thickness_to_chord_root wing_span fuselage_avg_diameter wing_center_chord)
      (J_slat_mass__wing_slat_chord_ratio wing_area wing_slat_chord_ratio wing_taper_ratio
      wing_slat_span_ratio wing_thickness_to_chord_root wing_span fuselage_avg_diameter
      wing_center_chord) wing_slat_chord_ratio ∧
    HasDerivAt (fun t => out_slat_mass wing_area wing_slat_chord_ratio t wing_slat_span_ratio
      wing_thickness_to_chord_root wing_span fuselage_avg_diameter wing_center_chord)
      (J_slat_mass__wing_taper_ratio wing_area wing_slat_chord_ratio wing_taper_ratio
      wing_slat_span_ratio wing_thickness_to_chord_root wing_span fuselage_avg_diameter
      wing_center_chord) wing_taper_ratio ∧
    HasDerivAt (fun t => out_slat_mass wing_area wing_slat_chord_ratio wing_taper_ratio t
      wing_thickness_to_chord_root wing_span fuselage_avg_diameter wing_center_chord)
      (J_slat_mass__wing_slat_span_ratio wing_area wing_slat_chord_ratio wing_taper_ratio
      wing_slat_span_ratio wing_thickness_to_chord_root wing_span fuselage_avg_diameter
      wing_center_chord) wing_slat_span_ratio ∧
    HasDerivAt (fun t => out_slat_mass wing_area wing_slat_chord_ratio wing_taper_ratio
      wing_slat_span_ratio wing_thickness_to_chord_root t fuselage_avg_diameter wing_center_chord)
      (J_slat_mass__wing_span wing_area wing_slat_chord_ratio wing_taper_ratio
      wing_slat_span_ratio wing_thickness_to_chord_root wing_span fuselage_avg_diameter
      wing_center_chord) wing_span ∧
    HasDerivAt (fun t => out_flap_mass wing_num_flap_segments sea_level_density t wing_area
      wing_flap_chord_ratio wing_taper_ratio wing_flap_span_ratio design_wing_loading
      wing_thickness_to_chord_root wing_span fuselage_avg_diameter wing_center_chord
      landing_lift_coefficient_max) (J_flap_mass__wing_high_lift_mass_coefficient
      wing_num_flap_segments sea_level_density wing_area wing_flap_chord_ratio wing_taper_ratio
      wing_flap_span_ratio design_wing_loading wing_thickness_to_chord_root wing_span
      fuselage_avg_diameter wing_center_chord landing_lift_coefficient_max)
      wing_high_lift_mass_coefficient ∧
    HasDerivAt (fun t => out_flap_mass wing_num_flap_segments sea_level_density
      wing_high_lift_mass_coefficient t wing_flap_chord_ratio wing_taper_ratio
      wing_flap_span_ratio design_wing_loading wing_thickness_to_chord_root wing_span
      fuselage_avg_diameter wing_center_chord landing_lift_coefficient_max)
      (J_flap_mass__wing_area wing_num_flap_segments sea_level_density
      wing_high_lift_mass_coefficient wing_area wing_flap_chord_ratio wing_taper_ratio
      wing_flap_span_ratio design_wing_loading wing_thickness_to_chord_root wing_span
      fuselage_avg_diameter wing_center_chord landing_lift_coefficient_max) wing_area ∧
    HasDerivAt (fun t => out_flap_mass wing_num_flap_segments sea_level_density
      wing_high_lift_mass_coefficient wing_area t wing_taper_ratio wing_flap_span_ratio
      design_wing_loading wing_thickness_to_chord_root wing_span fuselage_avg_diameter
      wing_center_chord landing_lift_coefficient_max) (J_flap_mass__wing_flap_chord_ratio
      wing_num_flap_segments sea_level_density wing_high_lift_mass_coefficient wing_area
      wing_flap_chord_ratio wing_taper_ratio wing_flap_span_ratio design_wing_loading
      wing_thickness_to_chord_root wing_span fuselage_avg_diameter wing_center_chord
      landing_lift_coefficient_max) wing_flap_chord_ratio ∧
    HasDerivAt (fun t => out_flap_mass wing_num_flap_segments sea_level_density
      wing_high_lift_mass_coefficient wing_area wing_flap_chord_ratio t wing_flap_span_ratio
      design_wing_loading wing_thickness_to_chord_root wing_span fuselage_avg_diameter
      wing_center_chord landing_lift_coefficient_max) (J_flap_mass__wing_taper_ratio
      wing_num_flap_segments sea_level_density wing_high_lift_mass_coefficient wing_area
      wing_flap_chord_ratio wing_taper_ratio wing_flap_span_ratio design_wing_loading
      wing_thickness_to_chord_root wing_span fuselage_avg_diameter wing_center_chord
      landing_lift_coefficient_max) wing_taper_ratio ∧
    HasDerivAt (fun t => out_flap_mass wing_num_flap_segments sea_level_density
      wing_high_lift_mass_coefficient wing_area wing_flap_chord_ratio wing_taper_ratio t
      design_wing_loading wing_thickness_to_chord_root wing_span fuselage_avg_diameter
      wing_center_chord landing_lift_coefficient_max) (J_flap_mass__wing_flap_span_ratio
      wing_num_flap_segments sea_level_density wing_high_lift_mass_coefficient wing_area
      wing_flap_chord_ratio wing_taper_ratio wing_flap_span_ratio design_wing_loading
      wing_thickness_to_chord_root wing_span fuselage_avg_diameter wing_center_chord
      landing_lift_coefficient_max) wing_flap_span_ratio ∧
    HasDerivAt (fun t => out_flap_mass wing_num_flap_segments sea_level_density
      wing_high_lift_mass_coefficient wing_area wing_flap_chord_ratio wing_taper_ratio
      wing_flap_span_ratio t wing_thickness_to_chord_root wing_span fuselage_avg_diameter
      wing_center_chord landing_lift_coefficient_max) (J_flap_mass__design_wing_loading
      wing_num_flap_segments sea_level_density wing_high_lift_mass_coefficient wing_area
      wing_flap_chord_ratio wing_taper_ratio wing_flap_span_ratio design_wing_loading
      wing_thickness_to_chord_root wing_span fuselage_avg_diameter wing_center_chord
      landing_lift_coefficient_max) design_wing_loading ∧
    HasDerivAt (fun t => out_flap_mass wing_num_flap_segments sea_level_density
      wing_high_lift_mass_coefficient wing_area wing_flap_chord_ratio wing_taper_ratio
      wing_flap_span_ratio design_wing_loading wing_thickness_to_chord_root wing_span
      fuselage_avg_diameter wing_center_chord t) (J_flap_mass__landing_lift_coefficient_max
      wing_num_flap_segments sea_level_density wing_high_lift_mass_coefficient wing_area
      wing_flap_chord_ratio wing_taper_ratio wing_flap_span_ratio design_wing_loading
      wing_thickness_to_chord_root wing_span fuselage_avg_diameter wing_center_chord
      landing_lift_coefficient_max) landing_lift_coefficient_max ∧
    HasDerivAt (fun t => out_wing_high_lift_mass wing_num_flap_segments sea_level_density t wing_area
      wing_slat_chord_ratio wing_flap_chord_ratio wing_taper_ratio wing_flap_span_ratio
      wing_slat_span_ratio design_wing_loading wing_thickness_to_chord_root wing_span
      fuselage_avg_diameter wing_center_chord landing_lift_coefficient_max)
      (J_wing_high_lift_mass__wing_high_lift_mass_coefficient wing_num_flap_segments
      sea_level_density wing_area wing_flap_chord_ratio wing_taper_ratio wing_flap_span_ratio
      design_wing_loading wing_thickness_to_chord_root wing_span fuselage_avg_diameter
      wing_center_chord landing_lift_coefficient_max) wing_high_lift_mass_coefficient ∧
    HasDerivAt (fun t => out_wing_high_lift_mass wing_num_flap_segments sea_level_density
      wing_high_lift_mass_coefficient t wing_slat_chord_ratio wing_flap_chord_ratio
      wing_taper_ratio wing_flap_span_ratio wing_slat_span_ratio design_wing_loading
      wing_thickness_to_chord_root wing_span fuselage_avg_diameter wing_center_chord
      landing_lift_coefficient_max) (J_wing_high_lift_mass__wing_area wing_num_flap_segments
      sea_level_density wing_high_lift_mass_coefficient wing_area wing_slat_chord_ratio
      wing_flap_chord_ratio wing_taper_ratio wing_flap_span_ratio wing_slat_span_ratio
      design_wing_loading wing_thickness_to_chord_root wing_span fuselage_avg_diameter
      wing_center_chord landing_lift_coefficient_max) wing_area ∧
    HasDerivAt (fun t => out_wing_high_lift_mass wing_num_flap_segments sea_level_density
      wing_high_lift_mass_coefficient wing_area t wing_flap_chord_ratio wing_taper_ratio
      wing_flap_span_ratio wing_slat_span_ratio design_wing_loading wing_thickness_to_chord_root
      wing_span fuselage_avg_diameter wing_center_chord landing_lift_coefficient_max)
      (J_wing_high_lift_mass__wing_slat_chord_ratio wing_area wing_slat_chord_ratio
      wing_taper_ratio wing_slat_span_ratio wing_thickness_to_chord_root wing_span
      fuselage_avg_diameter wing_center_chord) wing_slat_chord_ratio ∧
    HasDerivAt (fun t => out_wing_high_lift_mass wing_num_flap_segments sea_level_density
      wing_high_lift_mass_coefficient wing_area wing_slat_chord_ratio t wing_taper_ratio
      wing_flap_span_ratio wing_slat_span_ratio design_wing_loading wing_thickness_to_chord_root
      wing_span fuselage_avg_diameter wing_center_chord landing_lift_coefficient_max)
      (J_wing_high_lift_mass__wing_flap_chord_ratio wing_num_flap_segments sea_level_density
      wing_high_lift_mass_coefficient wing_area wing_flap_chord_ratio wing_taper_ratio
      wing_flap_span_ratio design_wing_loading wing_thickness_to_chord_root wing_span
      fuselage_avg_diameter wing_center_chord landing_lift_coefficient_max) wing_flap_chord_ratio ∧
    HasDerivAt (fun t => out_wing_high_lift_mass wing_num_flap_segments sea_level_density
      wing_high_lift_mass_coefficient wing_area wing_slat_chord_ratio wing_flap_chord_ratio t
      wing_flap_span_ratio wing_slat_span_ratio design_wing_loading wing_thickness_to_chord_root
      wing_span fuselage_avg_diameter wing_center_chord landing_lift_coefficient_max)
      (J_wing_high_lift_mass__wing_taper_ratio wing_num_flap_segments sea_level_density
      wing_high_lift_mass_coefficient wing_area wing_slat_chord_ratio wing_flap_chord_ratio
      wing_taper_ratio wing_flap_span_ratio wing_slat_span_ratio design_wing_loading
      wing_thickness_to_chord_root wing_span fuselage_avg_diameter wing_center_chord
      landing_lift_coefficient_max) wing_taper_ratio ∧
    HasDerivAt (fun t => out_wing_high_lift_mass wing_num_flap_segments sea_level_density
      wing_high_lift_mass_coefficient wing_area wing_slat_chord_ratio wing_flap_chord_ratio
      wing_taper_ratio t wing_slat_span_ratio design_wing_loading wing_thickness_to_chord_root
      wing_span fuselage_avg_diameter wing_center_chord landing_lift_coefficient_max)
      (J_wing_high_lift_mass__wing_flap_span_ratio wing_num_flap_segments sea_level_density
      wing_high_lift_mass_coefficient wing_area wing_flap_chord_ratio wing_taper_ratio
      wing_flap_span_ratio design_wing_loading wing_thickness_to_chord_root wing_span
      fuselage_avg_diameter wing_center_chord landing_lift_coefficient_max) wing_flap_span_ratio ∧
    HasDerivAt (fun t => out_wing_high_lift_mass wing_num_flap_segments sea_level_density
      wing_high_lift_mass_coefficient wing_area wing_slat_chord_ratio wing_flap_chord_ratio
      wing_taper_ratio wing_flap_span_ratio t design_wing_loading wing_thickness_to_chord_root
      wing_span fuselage_avg_diameter wing_center_chord landing_lift_coefficient_max)
      (J_wing_high_lift_mass__wing_slat_span_ratio wing_area wing_slat_chord_ratio
      wing_taper_ratio wing_slat_span_ratio wing_thickness_to_chord_root wing_span
      fuselage_avg_diameter wing_center_chord) wing_slat_span_ratio ∧
    HasDerivAt (fun t => out_wing_high_lift_mass wing_num_flap_segments sea_level_density
      wing_high_lift_mass_coefficient wing_area wing_slat_chord_ratio wing_flap_chord_ratio
      wing_taper_ratio wing_flap_span_ratio wing_slat_span_ratio t wing_thickness_to_chord_root
      wing_span fuselage_avg_diameter wing_center_chord landing_lift_coefficient_max)
      (J_wing_high_lift_mass__design_wing_loading wing_num_flap_segments sea_level_density
      wing_high_lift_mass_coefficient wing_area wing_flap_chord_ratio wing_taper_ratio
      wing_flap_span_ratio design_wing_loading wing_thickness_to_chord_root wing_span
      fuselage_avg_diameter wing_center_chord landing_lift_coefficient_max) design_wing_loading ∧
    HasDerivAt (fun t => out_wing_high_lift_mass wing_num_flap_segments sea_level_density
      wing_high_lift_mass_coefficient wing_area wing_slat_chord_ratio wing_flap_chord_ratio
      wing_taper_ratio wing_flap_span_ratio wing_slat_span_ratio design_wing_loading
      wing_thickness_to_chord_root wing_span fuselage_avg_diameter wing_center_chord t)
      (J_wing_high_lift_mass__landing_lift_coefficient_max wing_num_flap_segments
      sea_level_density wing_high_lift_mass_coefficient wing_area wing_flap_chord_ratio
      wing_taper_ratio wing_flap_span_ratio design_wing_loading wing_thickness_to_chord_root
      wing_span fuselage_avg_diameter wing_center_chord landing_lift_coefficient_max)
      landing_lift_coefficient_max :=
  ⟨d_slat_mass__wing_area _ _ _ _ _ _ _ _ h0 h1 h2 h3 h4 h5 h6 h7 h8 h8,
    d_slat_mass__wing_slat_chord_ratio _ _ _ _ _ _ _ _ h0 h1 h2 h3 h4 h5 h6 h7 h8 h8,
    d_slat_mass__wing_taper_ratio _ _ _ _ _ _ _ _ h0 h1 h2 h3 h4 h5 h6 h7 h8 h8,
    d_slat_mass__wing_slat_span_ratio _ _ _ _ _ _ _ _ h0 h1 h2 h3 h4 h5 h6 h7 h8 h8,
    d_slat_mass__wing_span _ _ _ _ _ _ _ _ h0 h1 h2 h3 h4 h5 h6 h7 h8 h8,
    d_flap_mass__wing_high_lift_mass_coefficient _ _ _ _ _ _ _ _ _ _ _ _ _ h9 h10 h11 h0 h1 h2 h3
    h4 h12 h6 h13 h14 h15 h13 h14, d_flap_mass__wing_area _ _ _ _ _ _ _ _ _ _ _ _ _ h9 h10 h11 h0
    h1 h2 h3 h4 h12 h6 h13 h14 h15 h13 h14, d_flap_mass__wing_flap_chord_ratio _ _ _ _ _ _ _ _ _ _
    _ _ _ h9 h10 h11 h0 h1 h2 h3 h4 h12 h6 h13 h14 h15 h13 h14, d_flap_mass__wing_taper_ratio _ _
    _ _ _ _ _ _ _ _ _ _ _ h9 h10 h11 h0 h1 h2 h3 h4 h12 h6 h13 h14 h15 h13 h14,
    d_flap_mass__wing_flap_span_ratio _ _ _ _ _ _ _ _ _ _ _ _ _ h9 h10 h11 h0 h1 h2 h3 h4 h12 h6
    h13 h14 h15 h13 h14, d_flap_mass__design_wing_loading _ _ _ _ _ _ _ _ _ _ _ _ _ h9 h10 h11 h0
    h1 h2 h3 h4 h12 h6 h13 h14 h15 h13 h14, d_flap_mass__landing_lift_coefficient_max _ _ _ _ _ _
    _ _ _ _ _ _ _ h9 h10 h11 h0 h1 h2 h3 h4 h12 h6 h13 h14 h15 h13 h14,
    d_wing_high_lift_mass__wing_high_lift_mass_coefficient _ _ _ _ _ _ _ _ _ _ _ _ _ _ _ h9 h10
    h11 h0 h1 h2 h3 h4 h12 h6 h13 h14 h15 h5 h7 h8 h13 h14, d_wing_high_lift_mass__wing_area _ _ _
    _ _ _ _ _ _ _ _ _ _ _ _ h9 h10 h11 h0 h1 h2 h3 h4 h12 h6 h13 h14 h15 h5 h7 h8 h13 h14 h8,
    d_wing_high_lift_mass__wing_slat_chord_ratio _ _ _ _ _ _ _ _ _ _ _ _ _ _ _ h9 h10 h11 h0 h1 h2
    h3 h4 h12 h6 h13 h14 h15 h5 h7 h8 h8, d_wing_high_lift_mass__wing_flap_chord_ratio _ _ _ _ _ _
    _ _ _ _ _ _ _ _ _ h9 h10 h11 h0 h1 h2 h3 h4 h12 h6 h13 h14 h15 h5 h7 h8 h13 h14,
    d_wing_high_lift_mass__wing_taper_ratio _ _ _ _ _ _ _ _ _ _ _ _ _ _ _ h9 h10 h11 h0 h1 h2 h3
    h4 h12 h6 h13 h14 h15 h5 h7 h8 h13 h14 h8, d_wing_high_lift_mass__wing_flap_span_ratio _ _ _ _
    _ _ _ _ _ _ _ _ _ _ _ h9 h10 h11 h0 h1 h2 h3 h4 h12 h6 h13 h14 h15 h5 h7 h8 h13 h14,
    d_wing_high_lift_mass__wing_slat_span_ratio _ _ _ _ _ _ _ _ _ _ _ _ _ _ _ h9 h10 h11 h0 h1 h2
    h3 h4 h12 h6 h13 h14 h15 h5 h7 h8 h8, d_wing_high_lift_mass__design_wing_loading _ _ _ _ _ _ _
    _ _ _ _ _ _ _ _ h9 h10 h11 h0 h1 h2 h3 h4 h12 h6 h13 h14 h15 h5 h7 h8 h13 h14,
    d_wing_high_lift_mass__landing_lift_coefficient_max _ _ _ _ _ _ _ _ _ _ _ _ _ _ _ h9 h10 h11
    h0 h1 h2 h3 h4 h12 h6 h13 h14 h15 h5 h7 h8 h13 h14⟩

example : ∃ wing_num_flap_segments sea_level_density wing_high_lift_mass_coefficient wing_area
      wing_slat_chord_ratio wing_flap_chord_ratio wing_taper_ratio wing_flap_span_ratio
      wing_slat_span_ratio design_wing_loading wing_thickness_to_chord_root wing_span
      fuselage_avg_diameter wing_center_chord landing_lift_coefficient_max : ℝ,
      0 < wing_taper_ratio ∧
      0 < wing_thickness_to_chord_root ∧
      0 < wing_center_chord ∧
      0 < fuselage_avg_diameter - (wing_thickness_to_chord_root * wing_center_chord) ∧
      0 < wing_span ∧
      0 < wing_slat_chord_ratio ∧
      0 < wing_area ∧
      0 < wing_slat_span_ratio ∧
      0 < 2 - ((1 - wing_taper_ratio) * ((99 / 100) + (((2 * (sqrt ((wing_thickness_to_chord_root *
        wing_center_chord) * (fuselage_avg_diameter - (wing_thickness_to_chord_root *
        wing_center_chord))))) + (2 / 5)) / wing_span))) ∧
      0 < sea_level_density ∧
      0 < landing_lift_coefficient_max ∧
      0 < design_wing_loading ∧
      0 < wing_flap_chord_ratio ∧
      0 < wing_flap_span_ratio - (((2 * (sqrt ((wing_thickness_to_chord_root * wing_center_chord) *
        (fuselage_avg_diameter - (wing_thickness_to_chord_root * wing_center_chord))))) + (2 / 5))
        / wing_span) ∧
      0 < 2 - ((1 - wing_taper_ratio) * (wing_flap_span_ratio + (((2 * (sqrt
        ((wing_thickness_to_chord_root * wing_center_chord) * (fuselage_avg_diameter -
        (wing_thickness_to_chord_root * wing_center_chord))))) + (2 / 5)) / wing_span))) ∧
      0 < wing_num_flap_segments :=
  ⟨2, 1, 2, 1, 1, 2, 2, 2, 1, 1, 1, 2, 2, 1, 2, by comp_example, by comp_example, by comp_example,
    by comp_example, by comp_example, by comp_example, by comp_example, by comp_example, by
    comp_example, by comp_example, by comp_example, by comp_example, by comp_example, by
    comp_example, by comp_example, by comp_example⟩

end Verif.Comp.MassGaspBasedFixed.HighLiftMass_doubleslottedfowler

namespace Verif.Comp.MassGaspBasedFixed.HorizontalTailMass
open Real

/-- aviary/subsystems/mass/gasp_based/fixed.py:629 -/
noncomputable def fh (design_gross_mass horizontaltail_mass_coefficient fuselage_length horizontaltail_span landinggear_tail_hook_mass_scaler horizontaltail_taper_ratio : ℝ) : ℝ :=
  (((((design_gross_mass * horizontaltail_mass_coefficient) * fuselage_length) *
    horizontaltail_span) * landinggear_tail_hook_mass_scaler) * (1 + (2 *
    horizontaltail_taper_ratio))) / (1000000 * (1 + horizontaltail_taper_ratio))

/-- aviary/subsystems/mass/gasp_based/fixed.py:674 -/
noncomputable def dfh_dgrosswtinitial (horizontaltail_mass_coefficient fuselage_length horizontaltail_span landinggear_tail_hook_mass_scaler horizontaltail_taper_ratio : ℝ) : ℝ :=
  ((((horizontaltail_mass_coefficient * fuselage_length) * horizontaltail_span) *
    landinggear_tail_hook_mass_scaler) * (1 + (2 * horizontaltail_taper_ratio))) / (1000000 * (1
    + horizontaltail_taper_ratio))

/-- aviary/subsystems/mass/gasp_based/fixed.py:682 -/
noncomputable def dfh_dcoefhtail (design_gross_mass fuselage_length horizontaltail_span landinggear_tail_hook_mass_scaler horizontaltail_taper_ratio : ℝ) : ℝ :=
  ((((design_gross_mass * fuselage_length) * horizontaltail_span) *
    landinggear_tail_hook_mass_scaler) * (1 + (2 * horizontaltail_taper_ratio))) / (1000000 * (1
    + horizontaltail_taper_ratio))

/-- aviary/subsystems/mass/gasp_based/fixed.py:690 -/
noncomputable def dfh_dfuslen (design_gross_mass horizontaltail_mass_coefficient horizontaltail_span landinggear_tail_hook_mass_scaler horizontaltail_taper_ratio : ℝ) : ℝ :=
  ((((design_gross_mass * horizontaltail_mass_coefficient) * horizontaltail_span) *
    landinggear_tail_hook_mass_scaler) * (1 + (2 * horizontaltail_taper_ratio))) / (1000000 * (1
    + horizontaltail_taper_ratio))

/-- aviary/subsystems/mass/gasp_based/fixed.py:698 -/
noncomputable def dfh_dspanhtail (design_gross_mass horizontaltail_mass_coefficient fuselage_length landinggear_tail_hook_mass_scaler horizontaltail_taper_ratio : ℝ) : ℝ :=
  ((((design_gross_mass * horizontaltail_mass_coefficient) * fuselage_length) *
    landinggear_tail_hook_mass_scaler) * (1 + (2 * horizontaltail_taper_ratio))) / (1000000 * (1
    + horizontaltail_taper_ratio))

/-- aviary/subsystems/mass/gasp_based/fixed.py:706 -/
noncomputable def dfh_dhookfac (design_gross_mass horizontaltail_mass_coefficient fuselage_length horizontaltail_span horizontaltail_taper_ratio : ℝ) : ℝ :=
  ((((design_gross_mass * horizontaltail_mass_coefficient) * fuselage_length) *
    horizontaltail_span) * (1 + (2 * horizontaltail_taper_ratio))) / (1000000 * (1 +
    horizontaltail_taper_ratio))

/-- aviary/subsystems/mass/gasp_based/fixed.py:714 -/
noncomputable def dfh_dtaperratiohtail (design_gross_mass horizontaltail_mass_coefficient fuselage_length horizontaltail_span landinggear_tail_hook_mass_scaler horizontaltail_taper_ratio : ℝ) : ℝ :=
  (((((design_gross_mass * horizontaltail_mass_coefficient) * fuselage_length) *
    horizontaltail_span) * landinggear_tail_hook_mass_scaler) * (((1000000 * (1 +
    horizontaltail_taper_ratio)) * 2) - ((1 + (2 * horizontaltail_taper_ratio)) * 1000000))) /
    ((1000000 * (1 + horizontaltail_taper_ratio)) ^ 2)

/-- Output `horizontaltail_mass` of `HorizontalTailMass.compute`, aviary/subsystems/mass/gasp_based/fixed.py:639 -/
noncomputable def out_horizontaltail_mass (design_gross_mass horizontaltail_mass_coefficient fuselage_length horizontaltail_span landinggear_tail_hook_mass_scaler horizontaltail_taper_ratio horizontaltail_area min_dive_vel horizontaltail_moment_arm horizontaltail_thickness_to_chord horizontaltail_root_chord horizontaltail_mass_scaler : ℝ) : ℝ :=
  horizontaltail_mass_scaler * (350 * ((((horizontaltail_area * (fh design_gross_mass
    horizontaltail_mass_coefficient fuselage_length horizontaltail_span
    landinggear_tail_hook_mass_scaler horizontaltail_taper_ratio)) * ((log min_dive_vel) / (log
    10))) / (((100 * horizontaltail_moment_arm) * horizontaltail_thickness_to_chord) *
    horizontaltail_root_chord)) ^ ((27 / 50) : ℝ)))

/-- Partial of `horizontaltail_mass` with respect to `horizontaltail_area` as set by `HorizontalTailMass`, aviary/subsystems/mass/gasp_based/fixed.py:727 -/
noncomputable def J_horizontaltail_mass__horizontaltail_area (design_gross_mass horizontaltail_mass_coefficient fuselage_length horizontaltail_span landinggear_tail_hook_mass_scaler horizontaltail_taper_ratio horizontaltail_area min_dive_vel horizontaltail_moment_arm horizontaltail_thickness_to_chord horizontaltail_root_chord : ℝ) : ℝ :=
  (189 * ((((fh design_gross_mass horizontaltail_mass_coefficient fuselage_length
    horizontaltail_span landinggear_tail_hook_mass_scaler horizontaltail_taper_ratio) * ((log
    min_dive_vel) / (log 10))) / (((100 * horizontaltail_moment_arm) *
    horizontaltail_thickness_to_chord) * horizontaltail_root_chord)) ^ ((27 / 50) : ℝ))) *
    (horizontaltail_area ^ ((-(23 / 50)) : ℝ))

/-- Partial of `horizontaltail_mass` with respect to `design_gross_mass` as set by `HorizontalTailMass`, aviary/subsystems/mass/gasp_based/fixed.py:739 -/
noncomputable def J_horizontaltail_mass__design_gross_mass (design_gross_mass horizontaltail_mass_coefficient fuselage_length horizontaltail_span landinggear_tail_hook_mass_scaler horizontaltail_taper_ratio horizontaltail_area min_dive_vel horizontaltail_moment_arm horizontaltail_thickness_to_chord horizontaltail_root_chord : ℝ) : ℝ :=
  ((189 * (((horizontaltail_area * ((log min_dive_vel) / (log 10))) / (((100 *
    horizontaltail_moment_arm) * horizontaltail_thickness_to_chord) *
    horizontaltail_root_chord)) ^ ((27 / 50) : ℝ))) * ((fh design_gross_mass
    horizontaltail_mass_coefficient fuselage_length horizontaltail_span
    landinggear_tail_hook_mass_scaler horizontaltail_taper_ratio) ^ ((-(23 / 50)) : ℝ))) *
    (dfh_dgrosswtinitial horizontaltail_mass_coefficient fuselage_length horizontaltail_span
    landinggear_tail_hook_mass_scaler horizontaltail_taper_ratio)

/-- Partial of `horizontaltail_mass` with respect to `horizontaltail_mass_coefficient` as set by `HorizontalTailMass`, aviary/subsystems/mass/gasp_based/fixed.py:751 -/
noncomputable def J_horizontaltail_mass__horizontaltail_mass_coefficient (design_gross_mass horizontaltail_mass_coefficient fuselage_length horizontaltail_span landinggear_tail_hook_mass_scaler horizontaltail_taper_ratio horizontaltail_area min_dive_vel horizontaltail_moment_arm horizontaltail_thickness_to_chord horizontaltail_root_chord : ℝ) : ℝ :=
  ((189 * (((horizontaltail_area * ((log min_dive_vel) / (log 10))) / (((100 *
    horizontaltail_moment_arm) * horizontaltail_thickness_to_chord) *
    horizontaltail_root_chord)) ^ ((27 / 50) : ℝ))) * ((fh design_gross_mass
    horizontaltail_mass_coefficient fuselage_length horizontaltail_span
    landinggear_tail_hook_mass_scaler horizontaltail_taper_ratio) ^ ((-(23 / 50)) : ℝ))) *
    (dfh_dcoefhtail design_gross_mass fuselage_length horizontaltail_span
    landinggear_tail_hook_mass_scaler horizontaltail_taper_ratio)

/-- Partial of `horizontaltail_mass` with respect to `fuselage_length` as set by `HorizontalTailMass`, aviary/subsystems/mass/gasp_based/fixed.py:764 -/
noncomputable def J_horizontaltail_mass__fuselage_length (design_gross_mass horizontaltail_mass_coefficient fuselage_length horizontaltail_span landinggear_tail_hook_mass_scaler horizontaltail_taper_ratio horizontaltail_area min_dive_vel horizontaltail_moment_arm horizontaltail_thickness_to_chord horizontaltail_root_chord : ℝ) : ℝ :=
  ((189 * (((horizontaltail_area * ((log min_dive_vel) / (log 10))) / (((100 *
    horizontaltail_moment_arm) * horizontaltail_thickness_to_chord) *
    horizontaltail_root_chord)) ^ ((27 / 50) : ℝ))) * ((fh design_gross_mass
    horizontaltail_mass_coefficient fuselage_length horizontaltail_span
    landinggear_tail_hook_mass_scaler horizontaltail_taper_ratio) ^ ((-(23 / 50)) : ℝ))) *
    (dfh_dfuslen design_gross_mass horizontaltail_mass_coefficient horizontaltail_span
    landinggear_tail_hook_mass_scaler horizontaltail_taper_ratio)

/-- Partial of `horizontaltail_mass` with respect to `horizontaltail_span` as set by `HorizontalTailMass`, aviary/subsystems/mass/gasp_based/fixed.py:777 -/
noncomputable def J_horizontaltail_mass__horizontaltail_span (design_gross_mass horizontaltail_mass_coefficient fuselage_length horizontaltail_span landinggear_tail_hook_mass_scaler horizontaltail_taper_ratio horizontaltail_area min_dive_vel horizontaltail_moment_arm horizontaltail_thickness_to_chord horizontaltail_root_chord : ℝ) : ℝ :=
  ((189 * (((horizontaltail_area * ((log min_dive_vel) / (log 10))) / (((100 *
    horizontaltail_moment_arm) * horizontaltail_thickness_to_chord) *
    horizontaltail_root_chord)) ^ ((27 / 50) : ℝ))) * ((fh design_gross_mass
    horizontaltail_mass_coefficient fuselage_length horizontaltail_span
    landinggear_tail_hook_mass_scaler horizontaltail_taper_ratio) ^ ((-(23 / 50)) : ℝ))) *
    (dfh_dspanhtail design_gross_mass horizontaltail_mass_coefficient fuselage_length
    landinggear_tail_hook_mass_scaler horizontaltail_taper_ratio)

/-- Partial of `horizontaltail_mass` with respect to `landinggear_tail_hook_mass_scaler` as set by `HorizontalTailMass`, aviary/subsystems/mass/gasp_based/fixed.py:790 -/
noncomputable def J_horizontaltail_mass__landinggear_tail_hook_mass_scaler (design_gross_mass horizontaltail_mass_coefficient fuselage_length horizontaltail_span landinggear_tail_hook_mass_scaler horizontaltail_taper_ratio horizontaltail_area min_dive_vel horizontaltail_moment_arm horizontaltail_thickness_to_chord horizontaltail_root_chord : ℝ) : ℝ :=
  ((189 * (((horizontaltail_area * ((log min_dive_vel) / (log 10))) / (((100 *
    horizontaltail_moment_arm) * horizontaltail_thickness_to_chord) *
    horizontaltail_root_chord)) ^ ((27 / 50) : ℝ))) * ((fh design_gross_mass
    horizontaltail_mass_coefficient fuselage_length horizontaltail_span
    landinggear_tail_hook_mass_scaler horizontaltail_taper_ratio) ^ ((-(23 / 50)) : ℝ))) *
    (dfh_dhookfac design_gross_mass horizontaltail_mass_coefficient fuselage_length
    horizontaltail_span horizontaltail_taper_ratio)

/-- Partial of `horizontaltail_mass` with respect to `horizontaltail_taper_ratio` as set by `HorizontalTailMass`, aviary/subsystems/mass/gasp_based/fixed.py:803 -/
noncomputable def J_horizontaltail_mass__horizontaltail_taper_ratio (design_gross_mass horizontaltail_mass_coefficient fuselage_length horizontaltail_span landinggear_tail_hook_mass_scaler horizontaltail_taper_ratio horizontaltail_area min_dive_vel horizontaltail_moment_arm horizontaltail_thickness_to_chord horizontaltail_root_chord : ℝ) : ℝ :=
  ((189 * (((horizontaltail_area * ((log min_dive_vel) / (log 10))) / (((100 *
    horizontaltail_moment_arm) * horizontaltail_thickness_to_chord) *
    horizontaltail_root_chord)) ^ ((27 / 50) : ℝ))) * ((fh design_gross_mass
    horizontaltail_mass_coefficient fuselage_length horizontaltail_span
    landinggear_tail_hook_mass_scaler horizontaltail_taper_ratio) ^ ((-(23 / 50)) : ℝ))) *
    (dfh_dtaperratiohtail design_gross_mass horizontaltail_mass_coefficient fuselage_length
    horizontaltail_span landinggear_tail_hook_mass_scaler horizontaltail_taper_ratio)

/-- Partial of `horizontaltail_mass` with respect to `min_dive_vel` as set by `HorizontalTailMass`, aviary/subsystems/mass/gasp_based/fixed.py:816 -/
noncomputable def J_horizontaltail_mass__min_dive_vel (design_gross_mass horizontaltail_mass_coefficient fuselage_length horizontaltail_span landinggear_tail_hook_mass_scaler horizontaltail_taper_ratio horizontaltail_area min_dive_vel horizontaltail_moment_arm horizontaltail_thickness_to_chord horizontaltail_root_chord : ℝ) : ℝ :=
  ((189 * (((horizontaltail_area * (fh design_gross_mass horizontaltail_mass_coefficient
    fuselage_length horizontaltail_span landinggear_tail_hook_mass_scaler
    horizontaltail_taper_ratio)) / (((100 * horizontaltail_moment_arm) *
    horizontaltail_thickness_to_chord) * horizontaltail_root_chord)) ^ ((27 / 50) : ℝ))) *
    (((log min_dive_vel) / (log 10)) ^ ((-(23 / 50)) : ℝ))) / (min_dive_vel * (log 10))

/-- Partial of `horizontaltail_mass` with respect to `horizontaltail_moment_arm` as set by `HorizontalTailMass`, aviary/subsystems/mass/gasp_based/fixed.py:825 -/
noncomputable def J_horizontaltail_mass__horizontaltail_moment_arm (design_gross_mass horizontaltail_mass_coefficient fuselage_length horizontaltail_span landinggear_tail_hook_mass_scaler horizontaltail_taper_ratio horizontaltail_area min_dive_vel horizontaltail_moment_arm horizontaltail_thickness_to_chord horizontaltail_root_chord : ℝ) : ℝ :=
  ((350 * ((((horizontaltail_area * (fh design_gross_mass horizontaltail_mass_coefficient
    fuselage_length horizontaltail_span landinggear_tail_hook_mass_scaler
    horizontaltail_taper_ratio)) * ((log min_dive_vel) / (log 10))) / ((100 *
    horizontaltail_thickness_to_chord) * horizontaltail_root_chord)) ^ ((27 / 50) : ℝ))) * (-(27
    / 50))) * (horizontaltail_moment_arm ^ ((-(77 / 50)) : ℝ))

/-- Partial of `horizontaltail_mass` with respect to `horizontaltail_thickness_to_chord` as set by `HorizontalTailMass`, aviary/subsystems/mass/gasp_based/fixed.py:838 -/
noncomputable def J_horizontaltail_mass__horizontaltail_thickness_to_chord (design_gross_mass horizontaltail_mass_coefficient fuselage_length horizontaltail_span landinggear_tail_hook_mass_scaler horizontaltail_taper_ratio horizontaltail_area min_dive_vel horizontaltail_moment_arm horizontaltail_thickness_to_chord horizontaltail_root_chord : ℝ) : ℝ :=
  ((350 * ((((horizontaltail_area * (fh design_gross_mass horizontaltail_mass_coefficient
    fuselage_length horizontaltail_span landinggear_tail_hook_mass_scaler
    horizontaltail_taper_ratio)) * ((log min_dive_vel) / (log 10))) / ((100 *
    horizontaltail_moment_arm) * horizontaltail_root_chord)) ^ ((27 / 50) : ℝ))) * (-(27 / 50)))
    * (horizontaltail_thickness_to_chord ^ ((-(77 / 50)) : ℝ))

/-- Partial of `horizontaltail_mass` with respect to `horizontaltail_root_chord` as set by `HorizontalTailMass`, aviary/subsystems/mass/gasp_based/fixed.py:851 -/
noncomputable def J_horizontaltail_mass__horizontaltail_root_chord (design_gross_mass horizontaltail_mass_coefficient fuselage_length horizontaltail_span landinggear_tail_hook_mass_scaler horizontaltail_taper_ratio horizontaltail_area min_dive_vel horizontaltail_moment_arm horizontaltail_thickness_to_chord horizontaltail_root_chord : ℝ) : ℝ :=
  ((350 * ((((horizontaltail_area * (fh design_gross_mass horizontaltail_mass_coefficient
    fuselage_length horizontaltail_span landinggear_tail_hook_mass_scaler
    horizontaltail_taper_ratio)) * ((log min_dive_vel) / (log 10))) / ((100 *
    horizontaltail_moment_arm) * horizontaltail_thickness_to_chord)) ^ ((27 / 50) : ℝ))) * (-(27
    / 50))) * (horizontaltail_root_chord ^ ((-(77 / 50)) : ℝ))

/-- Partial of `horizontaltail_mass` with respect to `horizontaltail_mass_scaler` as set by `HorizontalTailMass`, aviary/subsystems/mass/gasp_based/fixed.py:864 -/
noncomputable def J_horizontaltail_mass__horizontaltail_mass_scaler (design_gross_mass horizontaltail_mass_coefficient fuselage_length horizontaltail_span landinggear_tail_hook_mass_scaler horizontaltail_taper_ratio horizontaltail_area min_dive_vel horizontaltail_moment_arm horizontaltail_thickness_to_chord horizontaltail_root_chord : ℝ) : ℝ :=
  350 * ((((horizontaltail_area * (fh design_gross_mass horizontaltail_mass_coefficient
    fuselage_length horizontaltail_span landinggear_tail_hook_mass_scaler
    horizontaltail_taper_ratio)) * ((log min_dive_vel) / (log 10))) / (((100 *
    horizontaltail_moment_arm) * horizontaltail_thickness_to_chord) *
    horizontaltail_root_chord)) ^ ((27 / 50) : ℝ))

theorem d_horizontaltail_mass__horizontaltail_mass_scaler (design_gross_mass
    horizontaltail_mass_coefficient fuselage_length horizontaltail_span
    landinggear_tail_hook_mass_scaler horizontaltail_taper_ratio horizontaltail_area min_dive_vel
    horizontaltail_moment_arm horizontaltail_thickness_to_chord horizontaltail_root_chord
    horizontaltail_mass_scaler : ℝ) (h0 : 0 < horizontaltail_taper_ratio) (h1 : 0 < min_dive_vel)
    (h2 : log 10 ≠ 0) (h3 : 0 < horizontaltail_moment_arm) (h4 : 0 <
    horizontaltail_thickness_to_chord) (h5 : 0 < horizontaltail_root_chord) (h6 : 0 <
    horizontaltail_area) (h7 : 0 < design_gross_mass) (h8 : 0 < horizontaltail_mass_coefficient)
    (h9 : 0 < fuselage_length) (h10 : 0 < horizontaltail_span) (h11 : 0 <
    landinggear_tail_hook_mass_scaler) (h12 : 0 < log min_dive_vel) (h13 : 0 < log 10) :
    HasDerivAt (fun t => out_horizontaltail_mass design_gross_mass horizontaltail_mass_coefficient fuselage_length horizontaltail_span landinggear_tail_hook_mass_scaler horizontaltail_taper_ratio horizontaltail_area min_dive_vel horizontaltail_moment_arm horizontaltail_thickness_to_chord horizontaltail_root_chord t) (J_horizontaltail_mass__horizontaltail_mass_scaler design_gross_mass horizontaltail_mass_coefficient fuselage_length horizontaltail_span landinggear_tail_hook_mass_scaler horizontaltail_taper_ratio horizontaltail_area min_dive_vel horizontaltail_moment_arm horizontaltail_thickness_to_chord horizontaltail_root_chord) horizontaltail_mass_scaler := by
  simp only [out_horizontaltail_mass, J_horizontaltail_mass__horizontaltail_mass_scaler, fh]
  (apply hasDerivAt_of_eq; on_goal 1 => (repeat' comp_step))
  all_goals try comp_side
  all_goals try simp only [mul_zero, zero_mul, add_zero, zero_add, sub_zero, zero_sub, mul_one, one_mul]
  all_goals try push_cast
  all_goals comp_eq

/-- Partial derivatives of `HorizontalTailMass` that are proved correct (the rest is listed in the header). -/
theorem partials_partial (design_gross_mass horizontaltail_mass_coefficient fuselage_length
    horizontaltail_span landinggear_tail_hook_mass_scaler horizontaltail_taper_ratio
    horizontaltail_area min_dive_vel horizontaltail_moment_arm horizontaltail_thickness_to_chord
    horizontaltail_root_chord horizontaltail_mass_scaler : ℝ) (h0 : 0 <
    horizontaltail_taper_ratio) (h1 : 0 < min_dive_vel) (h2 : log 10 ≠ 0) (h3 : 0 <
    horizontaltail_moment_arm) (h4 : 0 < horizontaltail_thickness_to_chord) (h5 : 0 <
    horizontaltail_root_chord) (h6 : 0 < horizontaltail_area) (h7 : 0 < design_gross_mass) (h8 : 0
    < horizontaltail_mass_coefficient) (h9 : 0 < fuselage_length) (h10 : 0 < horizontaltail_span)
    (h11 : 0 < landinggear_tail_hook_mass_scaler) (h12 : 0 < log min_dive_vel) (h13 : 0 < log 10)
    :
    HasDerivAt (fun t => out_horizontaltail_mass design_gross_mass horizontaltail_mass_coefficient
      fuselage_length horizontaltail_span landinggear_tail_hook_mass_scaler
      horizontaltail_taper_ratio horizontaltail_area min_dive_vel horizontaltail_moment_arm
      horizontaltail_thickness_to_chord horizontaltail_root_chord t)
      (J_horizontaltail_mass__horizontaltail_mass_scaler design_gross_mass
      horizontaltail_mass_coefficient fuselage_length horizontaltail_span
      landinggear_tail_hook_mass_scaler horizontaltail_taper_ratio horizontaltail_area
      min_dive_vel horizontaltail_moment_arm horizontaltail_thickness_to_chord
      horizontaltail_root_chord) horizontaltail_mass_scaler :=
  d_horizontaltail_mass__horizontaltail_mass_scaler _ _ _ _ _ _ _ _ _ _ _ _ h0 h1 h2 h3 h4 h5 h6
    h7 h8 h9 h10 h11 h12 h13

example : ∃ design_gross_mass horizontaltail_mass_coefficient fuselage_length horizontaltail_span
      landinggear_tail_hook_mass_scaler horizontaltail_taper_ratio horizontaltail_area
      min_dive_vel horizontaltail_moment_arm horizontaltail_thickness_to_chord
      horizontaltail_root_chord horizontaltail_mass_scaler : ℝ,
      0 < horizontaltail_taper_ratio ∧
      0 < min_dive_vel ∧
      log 10 ≠ 0 ∧
      0 < horizontaltail_moment_arm ∧
      0 < horizontaltail_thickness_to_chord ∧
      0 < horizontaltail_root_chord ∧
      0 < horizontaltail_area ∧
      0 < design_gross_mass ∧
      0 < horizontaltail_mass_coefficient ∧
      0 < fuselage_length ∧
      0 < horizontaltail_span ∧
      0 < landinggear_tail_hook_mass_scaler ∧
      0 < log min_dive_vel ∧
      0 < log 10 :=
  ⟨2, 1, 2, 2, 1, 1, 2, 2, 1, 1, 1, 0, by comp_example, by comp_example, by comp_example, by
    comp_example, by comp_example, by comp_example, by comp_example, by comp_example, by
    comp_example, by comp_example, by comp_example, by comp_example, by comp_example, by
    comp_example⟩

/-- The entry for `horizontaltail_mass` by `design_gross_mass` leaves out the factor `horizontaltail_mass_scaler`: where it is not zero it cannot be the
derivative both for `horizontaltail_mass_scaler = 1` and for `horizontaltail_mass_scaler = 2`. -/
theorem J_horizontaltail_mass__design_gross_mass_violated (design_gross_mass
    horizontaltail_mass_coefficient fuselage_length horizontaltail_span
    landinggear_tail_hook_mass_scaler horizontaltail_taper_ratio horizontaltail_area min_dive_vel
    horizontaltail_moment_arm horizontaltail_thickness_to_chord horizontaltail_root_chord : ℝ) (hJ
    : J_horizontaltail_mass__design_gross_mass design_gross_mass horizontaltail_mass_coefficient
    fuselage_length horizontaltail_span landinggear_tail_hook_mass_scaler
    horizontaltail_taper_ratio horizontaltail_area min_dive_vel horizontaltail_moment_arm
    horizontaltail_thickness_to_chord horizontaltail_root_chord ≠ 0) :
    ¬ (HasDerivAt (fun t => out_horizontaltail_mass t horizontaltail_mass_coefficient
      fuselage_length horizontaltail_span landinggear_tail_hook_mass_scaler
      horizontaltail_taper_ratio horizontaltail_area min_dive_vel horizontaltail_moment_arm
      horizontaltail_thickness_to_chord horizontaltail_root_chord 1)
      (J_horizontaltail_mass__design_gross_mass design_gross_mass horizontaltail_mass_coefficient
      fuselage_length horizontaltail_span landinggear_tail_hook_mass_scaler
      horizontaltail_taper_ratio horizontaltail_area min_dive_vel horizontaltail_moment_arm
      horizontaltail_thickness_to_chord horizontaltail_root_chord) design_gross_mass ∧ HasDerivAt
      (fun t => out_horizontaltail_mass t horizontaltail_mass_coefficient fuselage_length
      horizontaltail_span landinggear_tail_hook_mass_scaler horizontaltail_taper_ratio
      horizontaltail_area min_dive_vel horizontaltail_moment_arm horizontaltail_thickness_to_chord
      horizontaltail_root_chord 2) (J_horizontaltail_mass__design_gross_mass design_gross_mass
      horizontaltail_mass_coefficient fuselage_length horizontaltail_span
      landinggear_tail_hook_mass_scaler horizontaltail_taper_ratio horizontaltail_area
      min_dive_vel horizontaltail_moment_arm horizontaltail_thickness_to_chord
      horizontaltail_root_chord) design_gross_mass) := by
  rintro ⟨h1, h2⟩
  have e : (fun t => out_horizontaltail_mass t horizontaltail_mass_coefficient fuselage_length
      horizontaltail_span landinggear_tail_hook_mass_scaler horizontaltail_taper_ratio
      horizontaltail_area min_dive_vel horizontaltail_moment_arm horizontaltail_thickness_to_chord
      horizontaltail_root_chord 2) = fun t => 2 * out_horizontaltail_mass t
      horizontaltail_mass_coefficient fuselage_length horizontaltail_span
      landinggear_tail_hook_mass_scaler horizontaltail_taper_ratio horizontaltail_area
      min_dive_vel horizontaltail_moment_arm horizontaltail_thickness_to_chord
      horizontaltail_root_chord 1 := by
    funext t; simp only [out_horizontaltail_mass, fh]; ring
  rw [e] at h2
  have := h2.unique (h1.const_mul 2)
  exact hJ (by linarith)

example : J_horizontaltail_mass__design_gross_mass (2) (1) (1) (2) (2) (2) (1) (2) (1) (1) (2) ≠ 0
    := by
  simp only [J_horizontaltail_mass__design_gross_mass, dfh_dgrosswtinitial, fh]
  first | positivity | (norm_num; done) | (norm_num; positivity)

/-- The entry for `horizontaltail_mass` by `fuselage_length` leaves out the factor `horizontaltail_mass_scaler`: where it is not zero it cannot be the
derivative both for `horizontaltail_mass_scaler = 1` and for `horizontaltail_mass_scaler = 2`. -/
theorem J_horizontaltail_mass__fuselage_length_violated (design_gross_mass
    horizontaltail_mass_coefficient fuselage_length horizontaltail_span
    landinggear_tail_hook_mass_scaler horizontaltail_taper_ratio horizontaltail_area min_dive_vel
    horizontaltail_moment_arm horizontaltail_thickness_to_chord horizontaltail_root_chord : ℝ) (hJ
    : J_horizontaltail_mass__fuselage_length design_gross_mass horizontaltail_mass_coefficient
    fuselage_length horizontaltail_span landinggear_tail_hook_mass_scaler
    horizontaltail_taper_ratio horizontaltail_area min_dive_vel horizontaltail_moment_arm
    horizontaltail_thickness_to_chord horizontaltail_root_chord ≠ 0) :
    ¬ (HasDerivAt (fun t => out_horizontaltail_mass design_gross_mass
      horizontaltail_mass_coefficient t horizontaltail_span landinggear_tail_hook_mass_scaler
      horizontaltail_taper_ratio horizontaltail_area min_dive_vel horizontaltail_moment_arm
      horizontaltail_thickness_to_chord horizontaltail_root_chord 1)
      (J_horizontaltail_mass__fuselage_length design_gross_mass horizontaltail_mass_coefficient
      fuselage_length horizontaltail_span landinggear_tail_hook_mass_scaler
      horizontaltail_taper_ratio horizontaltail_area min_dive_vel horizontaltail_moment_arm
      horizontaltail_thickness_to_chord horizontaltail_root_chord) fuselage_length ∧ HasDerivAt
      (fun t => out_horizontaltail_mass design_gross_mass horizontaltail_mass_coefficient t
      horizontaltail_span landinggear_tail_hook_mass_scaler horizontaltail_taper_ratio
      horizontaltail_area min_dive_vel horizontaltail_moment_arm horizontaltail_thickness_to_chord
      horizontaltail_root_chord 2) (J_horizontaltail_mass__fuselage_length design_gross_mass
      horizontaltail_mass_coefficient fuselage_length horizontaltail_span
      landinggear_tail_hook_mass_scaler horizontaltail_taper_ratio horizontaltail_area
      min_dive_vel horizontaltail_moment_arm horizontaltail_thickness_to_chord
      horizontaltail_root_chord) fuselage_length) := by
  rintro ⟨h1, h2⟩
  have e : (fun t => out_horizontaltail_mass design_gross_mass horizontaltail_mass_coefficient t
      horizontaltail_span landinggear_tail_hook_mass_scaler horizontaltail_taper_ratio
      horizontaltail_area min_dive_vel horizontaltail_moment_arm horizontaltail_thickness_to_chord
      horizontaltail_root_chord 2) = fun t => 2 * out_horizontaltail_mass design_gross_mass
      horizontaltail_mass_coefficient t horizontaltail_span landinggear_tail_hook_mass_scaler
      horizontaltail_taper_ratio horizontaltail_area min_dive_vel horizontaltail_moment_arm
      horizontaltail_thickness_to_chord horizontaltail_root_chord 1 := by
    funext t; simp only [out_horizontaltail_mass, fh]; ring
  rw [e] at h2
  have := h2.unique (h1.const_mul 2)
  exact hJ (by linarith)

example : J_horizontaltail_mass__fuselage_length (2) (1) (1) (2) (2) (2) (1) (2) (1) (1) (2) ≠ 0
    := by
  simp only [J_horizontaltail_mass__fuselage_length, dfh_dfuslen, fh]
  first | positivity | (norm_num; done) | (norm_num; positivity)

/-- The entry for `horizontaltail_mass` by `horizontaltail_area` leaves out the factor `horizontaltail_mass_scaler`: where it is not zero it cannot be the
derivative both for `horizontaltail_mass_scaler = 1` and for `horizontaltail_mass_scaler = 2`. -/
theorem J_horizontaltail_mass__horizontaltail_area_violated (design_gross_mass
    horizontaltail_mass_coefficient fuselage_length horizontaltail_span
    landinggear_tail_hook_mass_scaler horizontaltail_taper_ratio horizontaltail_area min_dive_vel
    horizontaltail_moment_arm horizontaltail_thickness_to_chord horizontaltail_root_chord : ℝ) (hJ
    : J_horizontaltail_mass__horizontaltail_area design_gross_mass horizontaltail_mass_coefficient
    fuselage_length horizontaltail_span landinggear_tail_hook_mass_scaler
    horizontaltail_taper_ratio horizontaltail_area min_dive_vel horizontaltail_moment_arm
    horizontaltail_thickness_to_chord horizontaltail_root_chord ≠ 0) :
    ¬ (HasDerivAt (fun t => out_horizontaltail_mass design_gross_mass
      horizontaltail_mass_coefficient fuselage_length horizontaltail_span
      landinggear_tail_hook_mass_scaler horizontaltail_taper_ratio t min_dive_vel
      horizontaltail_moment_arm horizontaltail_thickness_to_chord horizontaltail_root_chord 1)
      (J_horizontaltail_mass__horizontaltail_area design_gross_mass
      horizontaltail_mass_coefficient fuselage_length horizontaltail_span
      landinggear_tail_hook_mass_scaler horizontaltail_taper_ratio horizontaltail_area
      min_dive_vel horizontaltail_moment_arm horizontaltail_thickness_to_chord
      horizontaltail_root_chord) horizontaltail_area ∧ HasDerivAt (fun t =>
      out_horizontaltail_mass design_gross_mass horizontaltail_mass_coefficient fuselage_length
      horizontaltail_span landinggear_tail_hook_mass_scaler horizontaltail_taper_ratio t
      min_dive_vel horizontaltail_moment_arm horizontaltail_thickness_to_chord
      horizontaltail_root_chord 2) (J_horizontaltail_mass__horizontaltail_area design_gross_mass
      horizontaltail_mass_coefficient fuselage_length horizontaltail_span
      landinggear_tail_hook_mass_scaler horizontaltail_taper_ratio horizontaltail_area
      min_dive_vel horizontaltail_moment_arm horizontaltail_thickness_to_chord
      horizontaltail_root_chord) horizontaltail_area) := by
  rintro ⟨h1, h2⟩
  have e : (fun t => out_horizontaltail_mass design_gross_mass horizontaltail_mass_coefficient
      fuselage_length horizontaltail_span landinggear_tail_hook_mass_scaler
      horizontaltail_taper_ratio t min_dive_vel horizontaltail_moment_arm
      horizontaltail_thickness_to_chord horizontaltail_root_chord 2) = fun t => 2 *
      out_horizontaltail_mass design_gross_mass horizontaltail_mass_coefficient fuselage_length
      horizontaltail_span landinggear_tail_hook_mass_scaler horizontaltail_taper_ratio t
      min_dive_vel horizontaltail_moment_arm horizontaltail_thickness_to_chord
      horizontaltail_root_chord 1 := by
    funext t; simp only [out_horizontaltail_mass, fh]; ring
  rw [e] at h2
  have := h2.unique (h1.const_mul 2)
  exact hJ (by linarith)

example : J_horizontaltail_mass__horizontaltail_area (2) (1) (1) (2) (2) (2) (1) (2) (1) (1) (2) ≠
    0 := by
  simp only [J_horizontaltail_mass__horizontaltail_area, fh]
  first | positivity | (norm_num; done) | (norm_num; positivity)

/-- The entry for `horizontaltail_mass` by `horizontaltail_mass_coefficient` leaves out the factor `horizontaltail_mass_scaler`: where it is not zero it cannot be the
derivative both for `horizontaltail_mass_scaler = 1` and for `horizontaltail_mass_scaler = 2`. -/
theorem J_horizontaltail_mass__horizontaltail_mass_coefficient_violated (design_gross_mass
    horizontaltail_mass_coefficient fuselage_length horizontaltail_span
    landinggear_tail_hook_mass_scaler horizontaltail_taper_ratio horizontaltail_area min_dive_vel
    horizontaltail_moment_arm horizontaltail_thickness_to_chord horizontaltail_root_chord : ℝ) (hJ
    : J_horizontaltail_mass__horizontaltail_mass_coefficient design_gross_mass
    horizontaltail_mass_coefficient fuselage_length horizontaltail_span
    landinggear_tail_hook_mass_scaler horizontaltail_taper_ratio horizontaltail_area min_dive_vel
    horizontaltail_moment_arm horizontaltail_thickness_to_chord horizontaltail_root_chord ≠ 0) :
    ¬ (HasDerivAt (fun t => out_horizontaltail_mass design_gross_mass t fuselage_length
      horizontaltail_span landinggear_tail_hook_mass_scaler horizontaltail_taper_ratio
      horizontaltail_area min_dive_vel horizontaltail_moment_arm horizontaltail_thickness_to_chord
      horizontaltail_root_chord 1) (J_horizontaltail_mass__horizontaltail_mass_coefficient
      design_gross_mass horizontaltail_mass_coefficient fuselage_length horizontaltail_span
      landinggear_tail_hook_mass_scaler horizontaltail_taper_ratio horizontaltail_area
      min_dive_vel horizontaltail_moment_arm horizontaltail_thickness_to_chord
      horizontaltail_root_chord) horizontaltail_mass_coefficient ∧ HasDerivAt (fun t =>
      out_horizontaltail_mass design_gross_mass t fuselage_length horizontaltail_span
      landinggear_tail_hook_mass_scaler horizontaltail_taper_ratio horizontaltail_area
      min_dive_vel horizontaltail_moment_arm horizontaltail_thickness_to_chord
      horizontaltail_root_chord 2) (J_horizontaltail_mass__horizontaltail_mass_coefficient
      design_gross_mass horizontaltail_mass_coefficient fuselage_length horizontaltail_span
      landinggear_tail_hook_mass_scaler horizontaltail_taper_ratio horizontaltail_area
      min_dive_vel horizontaltail_moment_arm horizontaltail_thickness_to_chord
      horizontaltail_root_chord) horizontaltail_mass_coefficient) := by
  rintro ⟨h1, h2⟩
  have e : (fun t => out_horizontaltail_mass design_gross_mass t fuselage_length
      horizontaltail_span landinggear_tail_hook_mass_scaler horizontaltail_taper_ratio
      horizontaltail_area min_dive_vel horizontaltail_moment_arm horizontaltail_thickness_to_chord
      horizontaltail_root_chord 2) = fun t => 2 * out_horizontaltail_mass design_gross_mass t
      fuselage_length horizontaltail_span landinggear_tail_hook_mass_scaler
      horizontaltail_taper_ratio horizontaltail_area min_dive_vel horizontaltail_moment_arm
      horizontaltail_thickness_to_chord horizontaltail_root_chord 1 := by
    funext t; simp only [out_horizontaltail_mass, fh]; ring
  rw [e] at h2
  have := h2.unique (h1.const_mul 2)
  exact hJ (by linarith)

example : J_horizontaltail_mass__horizontaltail_mass_coefficient (2) (1) (1) (2) (2) (2) (1) (2)
    (1) (1) (2) ≠ 0 := by
  simp only [J_horizontaltail_mass__horizontaltail_mass_coefficient, dfh_dcoefhtail, fh]
  first | positivity | (norm_num; done) | (norm_num; positivity)

/-- The entry for `horizontaltail_mass` by `horizontaltail_moment_arm` leaves out the factor `horizontaltail_mass_scaler`: where it is not zero it cannot be the
derivative both for `horizontaltail_mass_scaler = 1` and for `horizontaltail_mass_scaler = 2`. -/
theorem J_horizontaltail_mass__horizontaltail_moment_arm_violated (design_gross_mass
    horizontaltail_mass_coefficient fuselage_length horizontaltail_span
    landinggear_tail_hook_mass_scaler horizontaltail_taper_ratio horizontaltail_area min_dive_vel
    horizontaltail_moment_arm horizontaltail_thickness_to_chord horizontaltail_root_chord : ℝ) (hJ
    : J_horizontaltail_mass__horizontaltail_moment_arm design_gross_mass
    horizontaltail_mass_coefficient fuselage_length horizontaltail_span
    landinggear_tail_hook_mass_scaler horizontaltail_taper_ratio horizontaltail_area min_dive_vel
    horizontaltail_moment_arm horizontaltail_thickness_to_chord horizontaltail_root_chord ≠ 0) :
    ¬ (HasDerivAt (fun t => out_horizontaltail_mass design_gross_mass
      horizontaltail_mass_coefficient fuselage_length horizontaltail_span
      landinggear_tail_hook_mass_scaler horizontaltail_taper_ratio horizontaltail_area
      min_dive_vel t horizontaltail_thickness_to_chord horizontaltail_root_chord 1)
      (J_horizontaltail_mass__horizontaltail_moment_arm design_gross_mass
      horizontaltail_mass_coefficient fuselage_length horizontaltail_span
      landinggear_tail_hook_mass_scaler horizontaltail_taper_ratio horizontaltail_area
      min_dive_vel horizontaltail_moment_arm horizontaltail_thickness_to_chord
      horizontaltail_root_chord) horizontaltail_moment_arm ∧ HasDerivAt (fun t =>
      out_horizontaltail_mass design_gross_mass horizontaltail_mass_coefficient fuselage_length
      horizontaltail_span landinggear_tail_hook_mass_scaler horizontaltail_taper_ratio
      horizontaltail_area min_dive_vel t horizontaltail_thickness_to_chord
      horizontaltail_root_chord 2) (J_horizontaltail_mass__horizontaltail_moment_arm
      design_gross_mass horizontaltail_mass_coefficient fuselage_length horizontaltail_span
      landinggear_tail_hook_mass_scaler horizontaltail_taper_ratio horizontaltail_area
      min_dive_vel horizontaltail_moment_arm horizontaltail_thickness_to_chord
      horizontaltail_root_chord) horizontaltail_moment_arm) := by
  rintro ⟨h1, h2⟩
  have e : (fun t => out_horizontaltail_mass design_gross_mass horizontaltail_mass_coefficient
      fuselage_length horizontaltail_span landinggear_tail_hook_mass_scaler
      horizontaltail_taper_ratio horizontaltail_area min_dive_vel t
      horizontaltail_thickness_to_chord horizontaltail_root_chord 2) = fun t => 2 *
      out_horizontaltail_mass design_gross_mass horizontaltail_mass_coefficient fuselage_length
      horizontaltail_span landinggear_tail_hook_mass_scaler horizontaltail_taper_ratio
      horizontaltail_area min_dive_vel t horizontaltail_thickness_to_chord
      horizontaltail_root_chord 1 := by
    funext t; simp only [out_horizontaltail_mass, fh]; ring
  rw [e] at h2
  have := h2.unique (h1.const_mul 2)
  exact hJ (by linarith)

example : J_horizontaltail_mass__horizontaltail_moment_arm (2) (1) (1) (2) (2) (2) (1) (2) (1) (1)
    (2) ≠ 0 := by
  simp only [J_horizontaltail_mass__horizontaltail_moment_arm, fh]
  first | positivity | (norm_num; done) | (norm_num; positivity)

/-- The entry for `horizontaltail_mass` by `horizontaltail_root_chord` leaves out the factor `horizontaltail_mass_scaler`: where it is not zero it cannot be the
derivative both for `horizontaltail_mass_scaler = 1` and for `horizontaltail_mass_scaler = 2`. -/
theorem J_horizontaltail_mass__horizontaltail_root_chord_violated (design_gross_mass
    horizontaltail_mass_coefficient fuselage_length horizontaltail_span
    landinggear_tail_hook_mass_scaler horizontaltail_taper_ratio horizontaltail_area min_dive_vel
    horizontaltail_moment_arm horizontaltail_thickness_to_chord horizontaltail_root_chord : ℝ) (hJ
    : J_horizontaltail_mass__horizontaltail_root_chord design_gross_mass
    horizontaltail_mass_coefficient fuselage_length horizontaltail_span
    landinggear_tail_hook_mass_scaler horizontaltail_taper_ratio horizontaltail_area min_dive_vel
    horizontaltail_moment_arm horizontaltail_thickness_to_chord horizontaltail_root_chord ≠ 0) :
    ¬ (HasDerivAt (fun t => out_horizontaltail_mass design_gross_mass
      horizontaltail_mass_coefficient fuselage_length horizontaltail_span
      landinggear_tail_hook_mass_scaler horizontaltail_taper_ratio horizontaltail_area
      min_dive_vel horizontaltail_moment_arm horizontaltail_thickness_to_chord t 1)
      (J_horizontaltail_mass__horizontaltail_root_chord design_gross_mass
      horizontaltail_mass_coefficient fuselage_length horizontaltail_span
      landinggear_tail_hook_mass_scaler horizontaltail_taper_ratio horizontaltail_area
      min_dive_vel horizontaltail_moment_arm horizontaltail_thickness_to_chord
      horizontaltail_root_chord) horizontaltail_root_chord ∧ HasDerivAt (fun t =>
      out_horizontaltail_mass design_gross_mass horizontaltail_mass_coefficient fuselage_length
      horizontaltail_span landinggear_tail_hook_mass_scaler horizontaltail_taper_ratio
      horizontaltail_area min_dive_vel horizontaltail_moment_arm horizontaltail_thickness_to_chord
      t 2) (J_horizontaltail_mass__horizontaltail_root_chord design_gross_mass
      horizontaltail_mass_coefficient fuselage_length horizontaltail_span
      landinggear_tail_hook_mass_scaler horizontaltail_taper_ratio horizontaltail_area
      min_dive_vel horizontaltail_moment_arm horizontaltail_thickness_to_chord
      horizontaltail_root_chord) horizontaltail_root_chord) := by
  rintro ⟨h1, h2⟩
  have e : (fun t => out_horizontaltail_mass design_gross_mass horizontaltail_mass_coefficient
      fuselage_length horizontaltail_span landinggear_tail_hook_mass_scaler
      horizontaltail_taper_ratio horizontaltail_area min_dive_vel horizontaltail_moment_arm
      horizontaltail_thickness_to_chord t 2) = fun t => 2 * out_horizontaltail_mass
      design_gross_mass horizontaltail_mass_coefficient fuselage_length horizontaltail_span
      landinggear_tail_hook_mass_scaler horizontaltail_taper_ratio horizontaltail_area
      min_dive_vel horizontaltail_moment_arm horizontaltail_thickness_to_chord t 1 := by
    funext t; simp only [out_horizontaltail_mass, fh]; ring
  rw [e] at h2
  have := h2.unique (h1.const_mul 2)
  exact hJ (by linarith)

example : J_horizontaltail_mass__horizontaltail_root_chord (2) (1) (1) (2) (2) (2) (1) (2) (1) (1)
    (2) ≠ 0 := by
  simp only [J_horizontaltail_mass__horizontaltail_root_chord, fh]
  first | positivity | (norm_num; done) | (norm_num; positivity)

/-- The entry for `horizontaltail_mass` by `horizontaltail_span` leaves out the factor `horizontaltail_mass_scaler`: where it is not zero it cannot be the
derivative both for `horizontaltail_mass_scaler = 1` and for `horizontaltail_mass_scaler = 2`. -/
theorem J_horizontaltail_mass__horizontaltail_span_violated (design_gross_mass
    horizontaltail_mass_coefficient fuselage_length horizontaltail_span
    landinggear_tail_hook_mass_scaler horizontaltail_taper_ratio horizontaltail_area min_dive_vel
    horizontaltail_moment_arm horizontaltail_thickness_to_chord horizontaltail_root_chord : ℝ) (hJ
    : J_horizontaltail_mass__horizontaltail_span design_gross_mass horizontaltail_mass_coefficient
    fuselage_length horizontaltail_span landinggear_tail_hook_mass_scaler
    horizontaltail_taper_ratio horizontaltail_area min_dive_vel horizontaltail_moment_arm
    horizontaltail_thickness_to_chord horizontaltail_root_chord ≠ 0) :
    ¬ (HasDerivAt (fun t => out_horizontaltail_mass design_gross_mass
      horizontaltail_mass_coefficient fuselage_length t landinggear_tail_hook_mass_scaler
      horizontaltail_taper_ratio horizontaltail_area min_dive_vel horizontaltail_moment_arm
      horizontaltail_thickness_to_chord horizontaltail_root_chord 1)
      (J_horizontaltail_mass__horizontaltail_span design_gross_mass
      horizontaltail_mass_coefficient fuselage_length horizontaltail_span
      landinggear_tail_hook_mass_scaler horizontaltail_taper_ratio horizontaltail_area
      min_dive_vel horizontaltail_moment_arm horizontaltail_thickness_to_chord
      horizontaltail_root_chord) horizontaltail_span ∧ HasDerivAt (fun t =>
      out_horizontaltail_mass design_gross_mass horizontaltail_mass_coefficient fuselage_length t
      landinggear_tail_hook_mass_scaler horizontaltail_taper_ratio horizontaltail_area
      min_dive_vel horizontaltail_moment_arm horizontaltail_thickness_to_chord
      horizontaltail_root_chord 2) (J_horizontaltail_mass__horizontaltail_span design_gross_mass
      horizontaltail_mass_coefficient fuselage_length horizontaltail_span
      landinggear_tail_hook_mass_scaler horizontaltail_taper_ratio horizontaltail_area
      min_dive_vel horizontaltail_moment_arm horizontaltail_thickness_to_chord
      horizontaltail_root_chord) horizontaltail_span) := by
  rintro ⟨h1, h2⟩
  have e : (fun t => out_horizontaltail_mass design_gross_mass horizontaltail_mass_coefficient
      fuselage_length t landinggear_tail_hook_mass_scaler horizontaltail_taper_ratio
      horizontaltail_area min_dive_vel horizontaltail_moment_arm horizontaltail_thickness_to_chord
      horizontaltail_root_chord 2) = fun t => 2 * out_horizontaltail_mass design_gross_mass
      horizontaltail_mass_coefficient fuselage_length t landinggear_tail_hook_mass_scaler
      horizontaltail_taper_ratio horizontaltail_area min_dive_vel horizontaltail_moment_arm
      horizontaltail_thickness_to_chord horizontaltail_root_chord 1 := by
    funext t; simp only [out_horizontaltail_mass, fh]; ring
  rw [e] at h2
  have := h2.unique (h1.const_mul 2)
  exact hJ (by linarith)

example : J_horizontaltail_mass__horizontaltail_span (2) (1) (1) (2) (2) (2) (1) (2) (1) (1) (2) ≠
    0 := by
  simp only [J_horizontaltail_mass__horizontaltail_span, dfh_dspanhtail, fh]
  first | positivity | (norm_num; done) | (norm_num; positivity)

/-- The entry for `horizontaltail_mass` by `horizontaltail_taper_ratio` leaves out the factor `horizontaltail_mass_scaler`: where it is not zero it cannot be the
derivative both for `horizontaltail_mass_scaler = 1` and for `horizontaltail_mass_scaler = 2`. -/
theorem J_horizontaltail_mass__horizontaltail_taper_ratio_violated (design_gross_mass
    horizontaltail_mass_coefficient fuselage_length horizontaltail_span
    landinggear_tail_hook_mass_scaler horizontaltail_taper_ratio horizontaltail_area min_dive_vel
    horizontaltail_moment_arm horizontaltail_thickness_to_chord horizontaltail_root_chord : ℝ) (hJ
    : J_horizontaltail_mass__horizontaltail_taper_ratio design_gross_mass
    horizontaltail_mass_coefficient fuselage_length horizontaltail_span
    landinggear_tail_hook_mass_scaler horizontaltail_taper_ratio horizontaltail_area min_dive_vel
    horizontaltail_moment_arm horizontaltail_thickness_to_chord horizontaltail_root_chord ≠ 0) :
    ¬ (HasDerivAt (fun t => out_horizontaltail_mass design_gross_mass
      horizontaltail_mass_coefficient fuselage_length horizontaltail_span
      landinggear_tail_hook_mass_scaler t horizontaltail_area min_dive_vel
      horizontaltail_moment_arm horizontaltail_thickness_to_chord horizontaltail_root_chord 1)
      (J_horizontaltail_mass__horizontaltail_taper_ratio design_gross_mass
      horizontaltail_mass_coefficient fuselage_length horizontaltail_span
      landinggear_tail_hook_mass_scaler horizontaltail_taper_ratio horizontaltail_area
      min_dive_vel horizontaltail_moment_arm horizontaltail_thickness_to_chord
      horizontaltail_root_chord) horizontaltail_taper_ratio ∧ HasDerivAt (fun t =>
      out_horizontaltail_mass design_gross_mass horizontaltail_mass_coefficient fuselage_length
      horizontaltail_span landinggear_tail_hook_mass_scaler t horizontaltail_area min_dive_vel
      horizontaltail_moment_arm horizontaltail_thickness_to_chord horizontaltail_root_chord 2)
      (J_horizontaltail_mass__horizontaltail_taper_ratio design_gross_mass
      horizontaltail_mass_coefficient fuselage_length horizontaltail_span
      landinggear_tail_hook_mass_scaler horizontaltail_taper_ratio horizontaltail_area
      min_dive_vel horizontaltail_moment_arm horizontaltail_thickness_to_chord
      horizontaltail_root_chord) horizontaltail_taper_ratio) := by
  rintro ⟨h1, h2⟩
  have e : (fun t => out_horizontaltail_mass design_gross_mass horizontaltail_mass_coefficient
      fuselage_length horizontaltail_span landinggear_tail_hook_mass_scaler t horizontaltail_area
      min_dive_vel horizontaltail_moment_arm horizontaltail_thickness_to_chord
      horizontaltail_root_chord 2) = fun t => 2 * out_horizontaltail_mass design_gross_mass
      horizontaltail_mass_coefficient fuselage_length horizontaltail_span
      landinggear_tail_hook_mass_scaler t horizontaltail_area min_dive_vel
      horizontaltail_moment_arm horizontaltail_thickness_to_chord horizontaltail_root_chord 1 :=
      by
    funext t; simp only [out_horizontaltail_mass, fh]; ring
  rw [e] at h2
  have := h2.unique (h1.const_mul 2)
  exact hJ (by linarith)

example : J_horizontaltail_mass__horizontaltail_taper_ratio (2) (1) (1) (2) (2) (2) (1) (2) (1)
    (1) (2) ≠ 0 := by
  simp only [J_horizontaltail_mass__horizontaltail_taper_ratio, dfh_dtaperratiohtail, fh]
  first | positivity | (norm_num; done) | (norm_num; positivity)

/-- The entry for `horizontaltail_mass` by `horizontaltail_thickness_to_chord` leaves out the factor `horizontaltail_mass_scaler`: where it is not zero it cannot be the
derivative both for `horizontaltail_mass_scaler = 1` and for `horizontaltail_mass_scaler = 2`. -/
theorem J_horizontaltail_mass__horizontaltail_thickness_to_chord_violated (design_gross_mass
    horizontaltail_mass_coefficient fuselage_length horizontaltail_span
    landinggear_tail_hook_mass_scaler horizontaltail_taper_ratio horizontaltail_area min_dive_vel
    horizontaltail_moment_arm horizontaltail_thickness_to_chord horizontaltail_root_chord : ℝ) (hJ
    : J_horizontaltail_mass__horizontaltail_thickness_to_chord design_gross_mass
    horizontaltail_mass_coefficient fuselage_length horizontaltail_span
    landinggear_tail_hook_mass_scaler horizontaltail_taper_ratio horizontaltail_area min_dive_vel
    horizontaltail_moment_arm horizontaltail_thickness_to_chord horizontaltail_root_chord ≠ 0) :
    ¬ (HasDerivAt (fun t => out_horizontaltail_mass design_gross_mass
      horizontaltail_mass_coefficient fuselage_length horizontaltail_span
      landinggear_tail_hook_mass_scaler horizontaltail_taper_ratio horizontaltail_area
      min_dive_vel horizontaltail_moment_arm t horizontaltail_root_chord 1)
      (J_horizontaltail_mass__horizontaltail_thickness_to_chord design_gross_mass
      horizontaltail_mass_coefficient fuselage_length horizontaltail_span
      landinggear_tail_hook_mass_scaler horizontaltail_taper_ratio horizontaltail_area
      min_dive_vel horizontaltail_moment_arm horizontaltail_thickness_to_chord
      horizontaltail_root_chord) horizontaltail_thickness_to_chord ∧ HasDerivAt (fun t =>
      out_horizontaltail_mass design_gross_mass horizontaltail_mass_coefficient fuselage_length
      horizontaltail_span landinggear_tail_hook_mass_scaler horizontaltail_taper_ratio
      horizontaltail_area min_dive_vel horizontaltail_moment_arm t horizontaltail_root_chord 2)
      (J_horizontaltail_mass__horizontaltail_thickness_to_chord design_gross_mass
      horizontaltail_mass_coefficient fuselage_length horizontaltail_span
      landinggear_tail_hook_mass_scaler horizontaltail_taper_ratio horizontaltail_area
      min_dive_vel horizontaltail_moment_arm horizontaltail_thickness_to_chord
      horizontaltail_root_chord) horizontaltail_thickness_to_chord) := by
  rintro ⟨h1, h2⟩
  have e : (fun t => out_horizontaltail_mass design_gross_mass horizontaltail_mass_coefficient
      fuselage_length horizontaltail_span landinggear_tail_hook_mass_scaler
      horizontaltail_taper_ratio horizontaltail_area min_dive_vel horizontaltail_moment_arm t
      horizontaltail_root_chord 2) = fun t => 2 * out_horizontaltail_mass design_gross_mass
      horizontaltail_mass_coefficient fuselage_length horizontaltail_span
      landinggear_tail_hook_mass_scaler horizontaltail_taper_ratio horizontaltail_area
      min_dive_vel horizontaltail_moment_arm t horizontaltail_root_chord 1 := by
    funext t; simp only [out_horizontaltail_mass, fh]; ring
  rw [e] at h2
  have := h2.unique (h1.const_mul 2)
  exact hJ (by linarith)

example : J_horizontaltail_mass__horizontaltail_thickness_to_chord (2) (1) (1) (2) (2) (2) (1) (2)
    (1) (1) (2) ≠ 0 := by
  simp only [J_horizontaltail_mass__horizontaltail_thickness_to_chord, fh]
  first | positivity | (norm_num; done) | (norm_num; positivity)

/-- The entry for `horizontaltail_mass` by `landinggear_tail_hook_mass_scaler` leaves out the factor `horizontaltail_mass_scaler`: where it is not zero it cannot be the
derivative both for `horizontaltail_mass_scaler = 1` and for `horizontaltail_mass_scaler = 2`. -/
theorem J_horizontaltail_mass__landinggear_tail_hook_mass_scaler_violated (design_gross_mass
    horizontaltail_mass_coefficient fuselage_length horizontaltail_span
    landinggear_tail_hook_mass_scaler horizontaltail_taper_ratio horizontaltail_area min_dive_vel
    horizontaltail_moment_arm horizontaltail_thickness_to_chord horizontaltail_root_chord : ℝ) (hJ
    : J_horizontaltail_mass__landinggear_tail_hook_mass_scaler design_gross_mass
    horizontaltail_mass_coefficient fuselage_length horizontaltail_span
    landinggear_tail_hook_mass_scaler horizontaltail_taper_ratio horizontaltail_area min_dive_vel
    horizontaltail_moment_arm horizontaltail_thickness_to_chord horizontaltail_root_chord ≠ 0) :
    ¬ (HasDerivAt (fun t => out_horizontaltail_mass design_gross_mass
      horizontaltail_mass_coefficient fuselage_length horizontaltail_span t
      horizontaltail_taper_ratio horizontaltail_area min_dive_vel horizontaltail_moment_arm
      horizontaltail_thickness_to_chord horizontaltail_root_chord 1)
      (J_horizontaltail_mass__landinggear_tail_hook_mass_scaler design_gross_mass
      horizontaltail_mass_coefficient fuselage_length horizontaltail_span
      landinggear_tail_hook_mass_scaler horizontaltail_taper_ratio horizontaltail_area
      min_dive_vel horizontaltail_moment_arm horizontaltail_thickness_to_chord
      horizontaltail_root_chord) landinggear_tail_hook_mass_scaler ∧ HasDerivAt (fun t =>
      out_horizontaltail_mass design_gross_mass horizontaltail_mass_coefficient fuselage_length
      horizontaltail_span t horizontaltail_taper_ratio horizontaltail_area min_dive_vel
      horizontaltail_moment_arm horizontaltail_thickness_to_chord horizontaltail_root_chord 2)
      (J_horizontaltail_mass__landinggear_tail_hook_mass_scaler design_gross_mass
      horizontaltail_mass_coefficient fuselage_length horizontaltail_span
      landinggear_tail_hook_mass_scaler horizontaltail_taper_ratio horizontaltail_area
      min_dive_vel horizontaltail_moment_arm horizontaltail_thickness_to_chord
      horizontaltail_root_chord) landinggear_tail_hook_mass_scaler) := by
  rintro ⟨h1, h2⟩
  have e : (fun t => out_horizontaltail_mass design_gross_mass horizontaltail_mass_coefficient
      fuselage_length horizontaltail_span t horizontaltail_taper_ratio horizontaltail_area
      min_dive_vel horizontaltail_moment_arm horizontaltail_thickness_to_chord
      horizontaltail_root_chord 2) = fun t => 2 * out_horizontaltail_mass design_gross_mass
      horizontaltail_mass_coefficient fuselage_length horizontaltail_span t
      horizontaltail_taper_ratio horizontaltail_area min_dive_vel horizontaltail_moment_arm
      horizontaltail_thickness_to_chord horizontaltail_root_chord 1 := by
    funext t; simp only [out_horizontaltail_mass, fh]; ring
  rw [e] at h2
  have := h2.unique (h1.const_mul 2)
  exact hJ (by linarith)

example : J_horizontaltail_mass__landinggear_tail_hook_mass_scaler (2) (1) (1) (2) (2) (2) (1) (2)
    (1) (1) (2) ≠ 0 := by
  simp only [J_horizontaltail_mass__landinggear_tail_hook_mass_scaler, dfh_dhookfac, fh]
  first | positivity | (norm_num; done) | (norm_num; positivity)

/-- The entry for `horizontaltail_mass` by `min_dive_vel` leaves out the factor `horizontaltail_mass_scaler`: where it is not zero it cannot be the
derivative both for `horizontaltail_mass_scaler = 1` and for `horizontaltail_mass_scaler = 2`. -/
theorem J_horizontaltail_mass__min_dive_vel_violated (design_gross_mass
    horizontaltail_mass_coefficient fuselage_length horizontaltail_span
    landinggear_tail_hook_mass_scaler horizontaltail_taper_ratio horizontaltail_area min_dive_vel
    horizontaltail_moment_arm horizontaltail_thickness_to_chord horizontaltail_root_chord : ℝ) (hJ
    : J_horizontaltail_mass__min_dive_vel design_gross_mass horizontaltail_mass_coefficient
    fuselage_length horizontaltail_span landinggear_tail_hook_mass_scaler
    horizontaltail_taper_ratio horizontaltail_area min_dive_vel horizontaltail_moment_arm
    horizontaltail_thickness_to_chord horizontaltail_root_chord ≠ 0) :
    ¬ (HasDerivAt (fun t => out_horizontaltail_mass design_gross_mass
      horizontaltail_mass_coefficient fuselage_length horizontaltail_span
      landinggear_tail_hook_mass_scaler horizontaltail_taper_ratio horizontaltail_area t
      horizontaltail_moment_arm horizontaltail_thickness_to_chord horizontaltail_root_chord 1)
      (J_horizontaltail_mass__min_dive_vel design_gross_mass horizontaltail_mass_coefficient
      fuselage_length horizontaltail_span landinggear_tail_hook_mass_scaler
      horizontaltail_taper_ratio horizontaltail_area min_dive_vel horizontaltail_moment_arm
      horizontaltail_thickness_to_chord horizontaltail_root_chord) min_dive_vel ∧ HasDerivAt (fun
      t => out_horizontaltail_mass design_gross_mass horizontaltail_mass_coefficient
      fuselage_length horizontaltail_span landinggear_tail_hook_mass_scaler
      horizontaltail_taper_ratio horizontaltail_area t horizontaltail_moment_arm
      horizontaltail_thickness_to_chord horizontaltail_root_chord 2)
      (J_horizontaltail_mass__min_dive_vel design_gross_mass horizontaltail_mass_coefficient
      fuselage_length horizontaltail_span landinggear_tail_hook_mass_scaler
      horizontaltail_taper_ratio horizontaltail_area min_dive_vel horizontaltail_moment_arm
      horizontaltail_thickness_to_chord horizontaltail_root_chord) min_dive_vel) := by
  rintro ⟨h1, h2⟩
  have e : (fun t => out_horizontaltail_mass design_gross_mass horizontaltail_mass_coefficient
      fuselage_length horizontaltail_span landinggear_tail_hook_mass_scaler
      horizontaltail_taper_ratio horizontaltail_area t horizontaltail_moment_arm
      horizontaltail_thickness_to_chord horizontaltail_root_chord 2) = fun t => 2 *
      out_horizontaltail_mass design_gross_mass horizontaltail_mass_coefficient fuselage_length
      horizontaltail_span landinggear_tail_hook_mass_scaler horizontaltail_taper_ratio
      horizontaltail_area t horizontaltail_moment_arm horizontaltail_thickness_to_chord
      horizontaltail_root_chord 1 := by
    funext t; simp only [out_horizontaltail_mass, fh]; ring
  rw [e] at h2
  have := h2.unique (h1.const_mul 2)
  exact hJ (by linarith)

example : J_horizontaltail_mass__min_dive_vel (2) (1) (1) (2) (2) (2) (1) (2) (1) (1) (2) ≠ 0 :=
    by
  simp only [J_horizontaltail_mass__min_dive_vel, fh]
  first | positivity | (norm_num; done) | (norm_num; positivity)

end Verif.Comp.MassGaspBasedFixed.HorizontalTailMass

