import Verif.Lemmas.CompDeriv

/-! # Partial derivatives of the components of `aviary/subsystems/mass/gasp_based/fixed.py`

One node of a vector component is modelled over the real numbers.  Each option that selects a
branch is fixed, one namespace per choice.  `out_x` is the output `x`, `J_x__y` the entry that
`compute_partials` (or `declare_partials` with `val`) assigns, `d_x__y` the proof that the entry is
the derivative.  Inputs an output does not take as argument have no influence on it.

* `HighLiftMass_split`: not proved: `flap_mass` by `design_wing_loading`, `flap_mass` by
  `landing_lift_coefficient_max`, `slat_mass` by `fuselage_avg_diameter`, `slat_mass` by
  `wing_area`, `slat_mass` by `wing_center_chord`, `slat_mass` by `wing_slat_chord_ratio`,
  `slat_mass` by `wing_slat_span_ratio`, `slat_mass` by `wing_span`, `slat_mass` by
  `wing_taper_ratio`, `slat_mass` by `wing_thickness_to_chord_root`, `wing_high_lift_mass` by
  `design_wing_loading`, `wing_high_lift_mass` by `fuselage_avg_diameter`, `wing_high_lift_mass`
  by `landing_lift_coefficient_max`, `wing_high_lift_mass` by `wing_area`, `wing_high_lift_mass`
  by `wing_center_chord`, `wing_high_lift_mass` by `wing_slat_chord_ratio`, `wing_high_lift_mass`
  by `wing_slat_span_ratio`, `wing_high_lift_mass` by `wing_span`, `wing_high_lift_mass` by
  `wing_taper_ratio`, `wing_high_lift_mass` by `wing_thickness_to_chord_root`

* `HighLiftMass_singleslotted`: not proved: `slat_mass` by `fuselage_avg_diameter`, `slat_mass` by
  `wing_center_chord`, `slat_mass` by `wing_thickness_to_chord_root`, `wing_high_lift_mass` by
  `fuselage_avg_diameter`, `wing_high_lift_mass` by `wing_center_chord`, `wing_high_lift_mass` by
  `wing_thickness_to_chord_root` -/

set_option linter.all false

namespace Verif.Comp.MassGaspBasedFixed.HighLiftMass_split
open Real

/-- aviary/subsystems/mass/gasp_based/fixed.py:1452 -/
noncomputable abbrev body_to_span_ratio (wing_thickness_to_chord_root wing_span fuselage_avg_diameter wing_center_chord : ℝ) : ℝ :=
  ((2 * (sqrt ((wing_thickness_to_chord_root * wing_center_chord) * (fuselage_avg_diameter -
    (wing_thickness_to_chord_root * wing_center_chord))))) + (2 / 5)) / wing_span

/-- aviary/subsystems/mass/gasp_based/fixed.py:1458 -/
noncomputable abbrev sflap (wing_area wing_flap_chord_ratio wing_taper_ratio wing_flap_span_ratio wing_thickness_to_chord_root wing_span fuselage_avg_diameter wing_center_chord : ℝ) : ℝ :=
  (((wing_flap_chord_ratio * wing_area) / (1 + wing_taper_ratio)) * (wing_flap_span_ratio -
    (body_to_span_ratio wing_thickness_to_chord_root wing_span fuselage_avg_diameter
    wing_center_chord))) * (2 - ((1 - wing_taper_ratio) * (wing_flap_span_ratio +
    (body_to_span_ratio wing_thickness_to_chord_root wing_span fuselage_avg_diameter
    wing_center_chord))))

/-- aviary/subsystems/mass/gasp_based/fixed.py:1466 -/
noncomputable abbrev sle (wing_area wing_slat_chord_ratio wing_taper_ratio wing_slat_span_ratio wing_thickness_to_chord_root wing_span fuselage_avg_diameter wing_center_chord : ℝ) : ℝ :=
  (((wing_slat_chord_ratio * wing_area) / (1 + wing_taper_ratio)) * wing_slat_span_ratio) * (2 -
    ((1 - wing_taper_ratio) * ((99 / 100) + (body_to_span_ratio wing_thickness_to_chord_root
    wing_span fuselage_avg_diameter wing_center_chord))))

/-- aviary/subsystems/mass/gasp_based/fixed.py:1473 -/
noncomputable abbrev vstall (sea_level_density design_wing_loading landing_lift_coefficient_max : ℝ) : ℝ :=
  (5921 / 10000) * (sqrt ((2 * design_wing_loading) / (sea_level_density *
    landing_lift_coefficient_max)))

/-- aviary/subsystems/mass/gasp_based/fixed.py:1474 -/
noncomputable abbrev vflap (sea_level_density design_wing_loading landing_lift_coefficient_max : ℝ) : ℝ :=
  (9 / 5) * (vstall sea_level_density design_wing_loading landing_lift_coefficient_max)

/-- aviary/subsystems/mass/gasp_based/fixed.py:1477 -/
noncomputable abbrev wled (wing_area wing_slat_chord_ratio wing_taper_ratio wing_slat_span_ratio wing_thickness_to_chord_root wing_span fuselage_avg_diameter wing_center_chord : ℝ) : ℝ :=
  (82 / 25) * ((sle wing_area wing_slat_chord_ratio wing_taper_ratio wing_slat_span_ratio
    wing_thickness_to_chord_root wing_span fuselage_avg_diameter wing_center_chord) ^ ((113 /
    100) : ℝ))

/-- aviary/subsystems/mass/gasp_based/fixed.py:1542 -/
noncomputable abbrev u1 (wing_thickness_to_chord_root fuselage_avg_diameter wing_center_chord : ℝ) : ℝ :=
  (wing_thickness_to_chord_root * wing_center_chord) * (fuselage_avg_diameter -
    (wing_thickness_to_chord_root * wing_center_chord))

/-- aviary/subsystems/mass/gasp_based/fixed.py:1543 -/
noncomputable abbrev body_to_span_ratio_2 (wing_thickness_to_chord_root wing_span fuselage_avg_diameter wing_center_chord : ℝ) : ℝ :=
  ((2 * (sqrt (u1 wing_thickness_to_chord_root fuselage_avg_diameter wing_center_chord))) + (2 /
    5)) / wing_span

/-- aviary/subsystems/mass/gasp_based/fixed.py:1544 -/
noncomputable abbrev dbtsr_dwingspan (wing_thickness_to_chord_root wing_span fuselage_avg_diameter wing_center_chord : ℝ) : ℝ :=
  (-(1 / wing_span)) * (body_to_span_ratio_2 wing_thickness_to_chord_root wing_span
    fuselage_avg_diameter wing_center_chord)

/-- aviary/subsystems/mass/gasp_based/fixed.py:1546 -/
noncomputable abbrev dbtsr_dtcrr (wing_thickness_to_chord_root wing_span fuselage_avg_diameter wing_center_chord : ℝ) : ℝ :=
  ((1 / wing_span) * (1 / (sqrt (u1 wing_thickness_to_chord_root fuselage_avg_diameter
    wing_center_chord)))) * ((wing_center_chord * fuselage_avg_diameter) - ((2 *
    wing_thickness_to_chord_root) * (wing_center_chord ^ 2)))

/-- aviary/subsystems/mass/gasp_based/fixed.py:1552 -/
noncomputable abbrev dbtsr_dcc (wing_thickness_to_chord_root wing_span fuselage_avg_diameter wing_center_chord : ℝ) : ℝ :=
  ((1 / wing_span) * (1 / (sqrt (u1 wing_thickness_to_chord_root fuselage_avg_diameter
    wing_center_chord)))) * ((wing_thickness_to_chord_root * fuselage_avg_diameter) - ((2 *
    (wing_thickness_to_chord_root ^ 2)) * wing_center_chord))

/-- aviary/subsystems/mass/gasp_based/fixed.py:1558 -/
noncomputable abbrev dbtsr_dcw (wing_thickness_to_chord_root wing_span fuselage_avg_diameter wing_center_chord : ℝ) : ℝ :=
  ((1 / wing_span) * (1 / (sqrt (u1 wing_thickness_to_chord_root fuselage_avg_diameter
    wing_center_chord)))) * (wing_thickness_to_chord_root * wing_center_chord)

/-- aviary/subsystems/mass/gasp_based/fixed.py:1560 -/
noncomputable abbrev sflap_2 (wing_area wing_flap_chord_ratio wing_taper_ratio wing_flap_span_ratio wing_thickness_to_chord_root wing_span fuselage_avg_diameter wing_center_chord : ℝ) : ℝ :=
  (((wing_flap_chord_ratio * wing_area) / (1 + wing_taper_ratio)) * (wing_flap_span_ratio -
    (body_to_span_ratio_2 wing_thickness_to_chord_root wing_span fuselage_avg_diameter
    wing_center_chord))) * (2 - ((1 - wing_taper_ratio) * (wing_flap_span_ratio +
    (body_to_span_ratio_2 wing_thickness_to_chord_root wing_span fuselage_avg_diameter
    wing_center_chord))))

/-- aviary/subsystems/mass/gasp_based/fixed.py:1568 -/
noncomputable abbrev dsflap_dfcr (wing_area wing_taper_ratio wing_flap_span_ratio wing_thickness_to_chord_root wing_span fuselage_avg_diameter wing_center_chord : ℝ) : ℝ :=
  ((wing_area / (1 + wing_taper_ratio)) * (wing_flap_span_ratio - (body_to_span_ratio_2
    wing_thickness_to_chord_root wing_span fuselage_avg_diameter wing_center_chord))) * (2 - ((1
    - wing_taper_ratio) * (wing_flap_span_ratio + (body_to_span_ratio_2
    wing_thickness_to_chord_root wing_span fuselage_avg_diameter wing_center_chord))))

/-- aviary/subsystems/mass/gasp_based/fixed.py:1575 -/
noncomputable abbrev dsflap_dwa (wing_flap_chord_ratio wing_taper_ratio wing_flap_span_ratio wing_thickness_to_chord_root wing_span fuselage_avg_diameter wing_center_chord : ℝ) : ℝ :=
  ((wing_flap_chord_ratio / (1 + wing_taper_ratio)) * (wing_flap_span_ratio -
    (body_to_span_ratio_2 wing_thickness_to_chord_root wing_span fuselage_avg_diameter
    wing_center_chord))) * (2 - ((1 - wing_taper_ratio) * (wing_flap_span_ratio +
    (body_to_span_ratio_2 wing_thickness_to_chord_root wing_span fuselage_avg_diameter
    wing_center_chord))))

/-- aviary/subsystems/mass/gasp_based/fixed.py:1582 -/
noncomputable abbrev dsflap_dfsr (wing_area wing_flap_chord_ratio wing_taper_ratio wing_flap_span_ratio : ℝ) : ℝ :=
  (wing_flap_chord_ratio * wing_area) * (((2 / (1 + wing_taper_ratio)) * (1 - (2 *
    wing_flap_span_ratio))) + (2 * wing_flap_span_ratio))

/-- aviary/subsystems/mass/gasp_based/fixed.py:1587 -/
noncomputable abbrev dsflap_dbtsr (wing_area wing_flap_chord_ratio wing_taper_ratio wing_thickness_to_chord_root wing_span fuselage_avg_diameter wing_center_chord : ℝ) : ℝ :=
  (wing_flap_chord_ratio * wing_area) * (((2 / (1 + wing_taper_ratio)) * ((2 *
    (body_to_span_ratio_2 wing_thickness_to_chord_root wing_span fuselage_avg_diameter
    wing_center_chord)) - 1)) - (2 * (body_to_span_ratio_2 wing_thickness_to_chord_root
    wing_span fuselage_avg_diameter wing_center_chord)))

/-- aviary/subsystems/mass/gasp_based/fixed.py:1592 -/
noncomputable abbrev dsflap_dtr (wing_area wing_flap_chord_ratio wing_taper_ratio wing_flap_span_ratio wing_thickness_to_chord_root wing_span fuselage_avg_diameter wing_center_chord : ℝ) : ℝ :=
  ((((wing_flap_chord_ratio * wing_area) * (-2)) / ((1 + wing_taper_ratio) ^ 2)) *
    (wing_flap_span_ratio - (body_to_span_ratio_2 wing_thickness_to_chord_root wing_span
    fuselage_avg_diameter wing_center_chord))) * ((1 - wing_flap_span_ratio) -
    (body_to_span_ratio_2 wing_thickness_to_chord_root wing_span fuselage_avg_diameter
    wing_center_chord))

/-- aviary/subsystems/mass/gasp_based/fixed.py:1601 -/
noncomputable abbrev sle_2 (wing_area wing_slat_chord_ratio wing_taper_ratio wing_slat_span_ratio wing_thickness_to_chord_root wing_span fuselage_avg_diameter wing_center_chord : ℝ) : ℝ :=
  (((wing_slat_chord_ratio * wing_area) / (1 + wing_taper_ratio)) * wing_slat_span_ratio) * (2 -
    ((1 - wing_taper_ratio) * ((99 / 100) + (body_to_span_ratio_2 wing_thickness_to_chord_root
    wing_span fuselage_avg_diameter wing_center_chord))))

/-- aviary/subsystems/mass/gasp_based/fixed.py:1608 -/
noncomputable abbrev dsle_dscr (wing_area wing_taper_ratio wing_slat_span_ratio wing_thickness_to_chord_root wing_span fuselage_avg_diameter wing_center_chord : ℝ) : ℝ :=
  ((wing_area / (1 + wing_taper_ratio)) * wing_slat_span_ratio) * (2 - ((1 - wing_taper_ratio) *
    ((99 / 100) + (body_to_span_ratio_2 wing_thickness_to_chord_root wing_span
    fuselage_avg_diameter wing_center_chord))))

/-- aviary/subsystems/mass/gasp_based/fixed.py:1615 -/
noncomputable abbrev dsle_dwa (wing_slat_chord_ratio wing_taper_ratio wing_slat_span_ratio wing_thickness_to_chord_root wing_span fuselage_avg_diameter wing_center_chord : ℝ) : ℝ :=
  ((wing_slat_chord_ratio / (1 + wing_taper_ratio)) * wing_slat_span_ratio) * (2 - ((1 -
    wing_taper_ratio) * ((99 / 100) + (body_to_span_ratio_2 wing_thickness_to_chord_root
    wing_span fuselage_avg_diameter wing_center_chord))))

/-- aviary/subsystems/mass/gasp_based/fixed.py:1622 -/
noncomputable abbrev dsle_dssr (wing_area wing_slat_chord_ratio wing_taper_ratio wing_thickness_to_chord_root wing_span fuselage_avg_diameter wing_center_chord : ℝ) : ℝ :=
  ((wing_slat_chord_ratio * wing_area) / (1 + wing_taper_ratio)) * (2 - ((1 - wing_taper_ratio)
    * ((99 / 100) + (body_to_span_ratio_2 wing_thickness_to_chord_root wing_span
    fuselage_avg_diameter wing_center_chord))))

/-- aviary/subsystems/mass/gasp_based/fixed.py:1627 -/
noncomputable abbrev dsle_dbtsr (wing_area wing_slat_chord_ratio wing_taper_ratio wing_slat_span_ratio : ℝ) : ℝ :=
  (((-(wing_slat_chord_ratio * wing_area)) / (1 + wing_taper_ratio)) * wing_slat_span_ratio) *
    (1 - wing_taper_ratio)

/-- aviary/subsystems/mass/gasp_based/fixed.py:1633 -/
noncomputable abbrev dsle_dtr (wing_area wing_slat_chord_ratio wing_taper_ratio wing_slat_span_ratio wing_thickness_to_chord_root wing_span fuselage_avg_diameter wing_center_chord : ℝ) : ℝ :=
  ((((2 * wing_slat_chord_ratio) * wing_area) * wing_slat_span_ratio) / ((1 + wing_taper_ratio)
    ^ 2)) * (((99 / 100) + (body_to_span_ratio_2 wing_thickness_to_chord_root wing_span
    fuselage_avg_diameter wing_center_chord)) - 1)

/-- aviary/subsystems/mass/gasp_based/fixed.py:1639 -/
noncomputable abbrev u2 (sea_level_density design_wing_loading landing_lift_coefficient_max : ℝ) : ℝ :=
  (2 * design_wing_loading) / (sea_level_density * landing_lift_coefficient_max)

/-- aviary/subsystems/mass/gasp_based/fixed.py:1640 -/
noncomputable abbrev vflap_2 (sea_level_density design_wing_loading landing_lift_coefficient_max : ℝ) : ℝ :=
  (9 / 5) * ((5921 / 10000) * (sqrt (u2 sea_level_density design_wing_loading
    landing_lift_coefficient_max)))

/-- aviary/subsystems/mass/gasp_based/fixed.py:1641 -/
noncomputable abbrev dvflap_dwl (sea_level_density design_wing_loading landing_lift_coefficient_max : ℝ) : ℝ :=
  ((53289 / 50000) * (1 / (sqrt (u2 sea_level_density design_wing_loading
    landing_lift_coefficient_max)))) * (1 / (sea_level_density * landing_lift_coefficient_max))

/-- aviary/subsystems/mass/gasp_based/fixed.py:1645 -/
noncomputable abbrev dvflap_dcmfl (sea_level_density design_wing_loading landing_lift_coefficient_max : ℝ) : ℝ :=
  ((-(53289 / 50000)) * (1 / (sqrt (u2 sea_level_density design_wing_loading
    landing_lift_coefficient_max)))) * (design_wing_loading / (sea_level_density *
    (landing_lift_coefficient_max ^ 2)))

/-- Output `slat_mass` of `HighLiftMass.compute`, aviary/subsystems/mass/gasp_based/fixed.py:1478 -/
noncomputable def out_slat_mass (wing_area wing_slat_chord_ratio wing_taper_ratio wing_slat_span_ratio wing_thickness_to_chord_root wing_span fuselage_avg_diameter wing_center_chord : ℝ) : ℝ :=
  wled wing_area wing_slat_chord_ratio wing_taper_ratio wing_slat_span_ratio
    wing_thickness_to_chord_root wing_span fuselage_avg_diameter wing_center_chord

/-- Output `flap_mass` of `HighLiftMass.compute`, aviary/subsystems/mass/gasp_based/fixed.py:1495 -/
noncomputable def out_flap_mass (sea_level_density wing_high_lift_mass_coefficient wing_area wing_flap_chord_ratio wing_taper_ratio wing_flap_span_ratio design_wing_loading wing_thickness_to_chord_root wing_span fuselage_avg_diameter wing_center_chord landing_lift_coefficient_max : ℝ) : ℝ :=
  if 160 < (vflap sea_level_density design_wing_loading landing_lift_coefficient_max) then
    (((wing_high_lift_mass_coefficient * (sflap wing_area wing_flap_chord_ratio wing_taper_ratio
    wing_flap_span_ratio wing_thickness_to_chord_root wing_span fuselage_avg_diameter
    wing_center_chord)) * ((vflap sea_level_density design_wing_loading
    landing_lift_coefficient_max) ^ ((439 / 200) : ℝ))) / 45180) else
    (((wing_high_lift_mass_coefficient * (sflap wing_area wing_flap_chord_ratio wing_taper_ratio
    wing_flap_span_ratio wing_thickness_to_chord_root wing_span fuselage_avg_diameter
    wing_center_chord)) * (369 / 1000)) * ((vflap sea_level_density design_wing_loading
    landing_lift_coefficient_max) ^ ((2733 / 10000) : ℝ)))

/-- Output `wing_high_lift_mass` of `HighLiftMass.compute`, aviary/subsystems/mass/gasp_based/fixed.py:1522 -/
noncomputable def out_wing_high_lift_mass (sea_level_density wing_high_lift_mass_coefficient wing_area wing_slat_chord_ratio wing_flap_chord_ratio wing_taper_ratio wing_flap_span_ratio wing_slat_span_ratio design_wing_loading wing_thickness_to_chord_root wing_span fuselage_avg_diameter wing_center_chord landing_lift_coefficient_max : ℝ) : ℝ :=
  (if 160 < (vflap sea_level_density design_wing_loading landing_lift_coefficient_max) then
    (((wing_high_lift_mass_coefficient * (sflap wing_area wing_flap_chord_ratio wing_taper_ratio
    wing_flap_span_ratio wing_thickness_to_chord_root wing_span fuselage_avg_diameter
    wing_center_chord)) * ((vflap sea_level_density design_wing_loading
    landing_lift_coefficient_max) ^ ((439 / 200) : ℝ))) / 45180) else
    (((wing_high_lift_mass_coefficient * (sflap wing_area wing_flap_chord_ratio wing_taper_ratio
    wing_flap_span_ratio wing_thickness_to_chord_root wing_span fuselage_avg_diameter
    wing_center_chord)) * (369 / 1000)) * ((vflap sea_level_density design_wing_loading
    landing_lift_coefficient_max) ^ ((2733 / 10000) : ℝ)))) + (wled wing_area
    wing_slat_chord_ratio wing_taper_ratio wing_slat_span_ratio wing_thickness_to_chord_root
    wing_span fuselage_avg_diameter wing_center_chord)

/-- Partial of `slat_mass` with respect to `wing_slat_chord_ratio` as set by `HighLiftMass`, aviary/subsystems/mass/gasp_based/fixed.py:1650 -/
noncomputable def J_slat_mass__wing_slat_chord_ratio (wing_area wing_slat_chord_ratio wing_taper_ratio wing_slat_span_ratio wing_thickness_to_chord_root wing_span fuselage_avg_diameter wing_center_chord : ℝ) : ℝ :=
  ((4633 / 1250) * ((sle_2 wing_area wing_slat_chord_ratio wing_taper_ratio wing_slat_span_ratio
    wing_thickness_to_chord_root wing_span fuselage_avg_diameter wing_center_chord) ^ ((13 /
    100) : ℝ))) * (dsle_dscr wing_area wing_taper_ratio wing_slat_span_ratio
    wing_thickness_to_chord_root wing_span fuselage_avg_diameter wing_center_chord)

/-- Partial of `slat_mass` with respect to `wing_area` as set by `HighLiftMass`, aviary/subsystems/mass/gasp_based/fixed.py:1653 -/
noncomputable def J_slat_mass__wing_area (wing_area wing_slat_chord_ratio wing_taper_ratio wing_slat_span_ratio wing_thickness_to_chord_root wing_span fuselage_avg_diameter wing_center_chord : ℝ) : ℝ :=
  ((4633 / 1250) * ((sle_2 wing_area wing_slat_chord_ratio wing_taper_ratio wing_slat_span_ratio
    wing_thickness_to_chord_root wing_span fuselage_avg_diameter wing_center_chord) ^ ((13 /
    100) : ℝ))) * (dsle_dwa wing_slat_chord_ratio wing_taper_ratio wing_slat_span_ratio
    wing_thickness_to_chord_root wing_span fuselage_avg_diameter wing_center_chord)

/-- Partial of `slat_mass` with respect to `wing_slat_span_ratio` as set by `HighLiftMass`, aviary/subsystems/mass/gasp_based/fixed.py:1654 -/
noncomputable def J_slat_mass__wing_slat_span_ratio (wing_area wing_slat_chord_ratio wing_taper_ratio wing_slat_span_ratio wing_thickness_to_chord_root wing_span fuselage_avg_diameter wing_center_chord : ℝ) : ℝ :=
  ((4633 / 1250) * ((sle_2 wing_area wing_slat_chord_ratio wing_taper_ratio wing_slat_span_ratio
    wing_thickness_to_chord_root wing_span fuselage_avg_diameter wing_center_chord) ^ ((13 /
    100) : ℝ))) * (dsle_dssr wing_area wing_slat_chord_ratio wing_taper_ratio
    wing_thickness_to_chord_root wing_span fuselage_avg_diameter wing_center_chord)

/-- Partial of `slat_mass` with respect to `wing_taper_ratio` as set by `HighLiftMass`, aviary/subsystems/mass/gasp_based/fixed.py:1657 -/
noncomputable def J_slat_mass__wing_taper_ratio (wing_area wing_slat_chord_ratio wing_taper_ratio wing_slat_span_ratio wing_thickness_to_chord_root wing_span fuselage_avg_diameter wing_center_chord : ℝ) : ℝ :=
  ((4633 / 1250) * ((sle_2 wing_area wing_slat_chord_ratio wing_taper_ratio wing_slat_span_ratio
    wing_thickness_to_chord_root wing_span fuselage_avg_diameter wing_center_chord) ^ ((13 /
    100) : ℝ))) * (dsle_dtr wing_area wing_slat_chord_ratio wing_taper_ratio
    wing_slat_span_ratio wing_thickness_to_chord_root wing_span fuselage_avg_diameter
    wing_center_chord)

/-- Partial of `slat_mass` with respect to `wing_span` as set by `HighLiftMass`, aviary/subsystems/mass/gasp_based/fixed.py:1660 -/
noncomputable def J_slat_mass__wing_span (wing_area wing_slat_chord_ratio wing_taper_ratio wing_slat_span_ratio wing_thickness_to_chord_root wing_span fuselage_avg_diameter wing_center_chord : ℝ) : ℝ :=
  (((4633 / 1250) * ((sle_2 wing_area wing_slat_chord_ratio wing_taper_ratio
    wing_slat_span_ratio wing_thickness_to_chord_root wing_span fuselage_avg_diameter
    wing_center_chord) ^ ((13 / 100) : ℝ))) * (dsle_dbtsr wing_area wing_slat_chord_ratio
    wing_taper_ratio wing_slat_span_ratio)) * (dbtsr_dwingspan wing_thickness_to_chord_root
    wing_span fuselage_avg_diameter wing_center_chord)

/-- Partial of `slat_mass` with respect to `wing_thickness_to_chord_root` as set by `HighLiftMass`, aviary/subsystems/mass/gasp_based/fixed.py:1663 -/
noncomputable def J_slat_mass__wing_thickness_to_chord_root (wing_area wing_slat_chord_ratio wing_taper_ratio wing_slat_span_ratio wing_thickness_to_chord_root wing_span fuselage_avg_diameter wing_center_chord : ℝ) : ℝ :=
  (((4633 / 1250) * ((sle_2 wing_area wing_slat_chord_ratio wing_taper_ratio
    wing_slat_span_ratio wing_thickness_to_chord_root wing_span fuselage_avg_diameter
    wing_center_chord) ^ ((13 / 100) : ℝ))) * (dsle_dbtsr wing_area wing_slat_chord_ratio
    wing_taper_ratio wing_slat_span_ratio)) * (dbtsr_dtcrr wing_thickness_to_chord_root
    wing_span fuselage_avg_diameter wing_center_chord)

/-- Partial of `slat_mass` with respect to `wing_center_chord` as set by `HighLiftMass`, aviary/subsystems/mass/gasp_based/fixed.py:1666 -/
noncomputable def J_slat_mass__wing_center_chord (wing_area wing_slat_chord_ratio wing_taper_ratio wing_slat_span_ratio wing_thickness_to_chord_root wing_span fuselage_avg_diameter wing_center_chord : ℝ) : ℝ :=
  (((4633 / 1250) * ((sle_2 wing_area wing_slat_chord_ratio wing_taper_ratio
    wing_slat_span_ratio wing_thickness_to_chord_root wing_span fuselage_avg_diameter
    wing_center_chord) ^ ((13 / 100) : ℝ))) * (dsle_dbtsr wing_area wing_slat_chord_ratio
    wing_taper_ratio wing_slat_span_ratio)) * (dbtsr_dcc wing_thickness_to_chord_root wing_span
    fuselage_avg_diameter wing_center_chord)

/-- Partial of `slat_mass` with respect to `fuselage_avg_diameter` as set by `HighLiftMass`, aviary/subsystems/mass/gasp_based/fixed.py:1669 -/
noncomputable def J_slat_mass__fuselage_avg_diameter (wing_area wing_slat_chord_ratio wing_taper_ratio wing_slat_span_ratio wing_thickness_to_chord_root wing_span fuselage_avg_diameter wing_center_chord : ℝ) : ℝ :=
  (((4633 / 1250) * ((sle_2 wing_area wing_slat_chord_ratio wing_taper_ratio
    wing_slat_span_ratio wing_thickness_to_chord_root wing_span fuselage_avg_diameter
    wing_center_chord) ^ ((13 / 100) : ℝ))) * (dsle_dbtsr wing_area wing_slat_chord_ratio
    wing_taper_ratio wing_slat_span_ratio)) * (dbtsr_dcw wing_thickness_to_chord_root wing_span
    fuselage_avg_diameter wing_center_chord)

/-- Partial of `flap_mass` with respect to `wing_high_lift_mass_coefficient` as set by `HighLiftMass`, aviary/subsystems/mass/gasp_based/fixed.py:1847 -/
noncomputable def J_flap_mass__wing_high_lift_mass_coefficient (sea_level_density wing_area wing_flap_chord_ratio wing_taper_ratio wing_flap_span_ratio design_wing_loading wing_thickness_to_chord_root wing_span fuselage_avg_diameter wing_center_chord landing_lift_coefficient_max : ℝ) : ℝ :=
  if 160 < (vflap_2 sea_level_density design_wing_loading landing_lift_coefficient_max) then
    (((sflap_2 wing_area wing_flap_chord_ratio wing_taper_ratio wing_flap_span_ratio
    wing_thickness_to_chord_root wing_span fuselage_avg_diameter wing_center_chord) * ((vflap_2
    sea_level_density design_wing_loading landing_lift_coefficient_max) ^ ((439 / 200) : ℝ))) /
    45180) else (((sflap_2 wing_area wing_flap_chord_ratio wing_taper_ratio wing_flap_span_ratio
    wing_thickness_to_chord_root wing_span fuselage_avg_diameter wing_center_chord) * (369 /
    1000)) * ((vflap_2 sea_level_density design_wing_loading landing_lift_coefficient_max) ^
    ((2733 / 10000) : ℝ)))

/-- Partial of `flap_mass` with respect to `design_wing_loading` as set by `HighLiftMass`, aviary/subsystems/mass/gasp_based/fixed.py:1850 -/
noncomputable def J_flap_mass__design_wing_loading (sea_level_density wing_high_lift_mass_coefficient wing_area wing_flap_chord_ratio wing_taper_ratio wing_flap_span_ratio design_wing_loading wing_thickness_to_chord_root wing_span fuselage_avg_diameter wing_center_chord landing_lift_coefficient_max : ℝ) : ℝ :=
  if 160 < (vflap_2 sea_level_density design_wing_loading landing_lift_coefficient_max) then
    (((wing_high_lift_mass_coefficient * (sflap_2 wing_area wing_flap_chord_ratio
    wing_taper_ratio wing_flap_span_ratio wing_thickness_to_chord_root wing_span
    fuselage_avg_diameter wing_center_chord)) * (((439 / 200) * ((vflap_2 sea_level_density
    design_wing_loading landing_lift_coefficient_max) ^ ((239 / 200) : ℝ))) * (dvflap_dwl
    sea_level_density design_wing_loading landing_lift_coefficient_max))) / 45180) else
    (((wing_high_lift_mass_coefficient * (sflap_2 wing_area wing_flap_chord_ratio
    wing_taper_ratio wing_flap_span_ratio wing_thickness_to_chord_root wing_span
    fuselage_avg_diameter wing_center_chord)) * (369 / 1000)) * (((2733 / 10000) * ((vflap_2
    sea_level_density design_wing_loading landing_lift_coefficient_max) ^ ((-(7267 / 10000)) :
    ℝ))) * (dvflap_dwl sea_level_density design_wing_loading landing_lift_coefficient_max)))

/-- Partial of `flap_mass` with respect to `landing_lift_coefficient_max` as set by `HighLiftMass`, aviary/subsystems/mass/gasp_based/fixed.py:1858 -/
noncomputable def J_flap_mass__landing_lift_coefficient_max (sea_level_density wing_high_lift_mass_coefficient wing_area wing_flap_chord_ratio wing_taper_ratio wing_flap_span_ratio design_wing_loading wing_thickness_to_chord_root wing_span fuselage_avg_diameter wing_center_chord landing_lift_coefficient_max : ℝ) : ℝ :=
  if 160 < (vflap_2 sea_level_density design_wing_loading landing_lift_coefficient_max) then
    (((wing_high_lift_mass_coefficient * (sflap_2 wing_area wing_flap_chord_ratio
    wing_taper_ratio wing_flap_span_ratio wing_thickness_to_chord_root wing_span
    fuselage_avg_diameter wing_center_chord)) * (((439 / 200) * ((vflap_2 sea_level_density
    design_wing_loading landing_lift_coefficient_max) ^ ((239 / 200) : ℝ))) * (dvflap_dcmfl
    sea_level_density design_wing_loading landing_lift_coefficient_max))) / 45180) else
    (((wing_high_lift_mass_coefficient * (sflap_2 wing_area wing_flap_chord_ratio
    wing_taper_ratio wing_flap_span_ratio wing_thickness_to_chord_root wing_span
    fuselage_avg_diameter wing_center_chord)) * (369 / 1000)) * (((2733 / 10000) * ((vflap_2
    sea_level_density design_wing_loading landing_lift_coefficient_max) ^ ((-(7267 / 10000)) :
    ℝ))) * (dvflap_dcmfl sea_level_density design_wing_loading landing_lift_coefficient_max)))

/-- Partial of `flap_mass` with respect to `wing_flap_chord_ratio` as set by `HighLiftMass`, aviary/subsystems/mass/gasp_based/fixed.py:1866 -/
noncomputable def J_flap_mass__wing_flap_chord_ratio (sea_level_density wing_high_lift_mass_coefficient wing_area wing_taper_ratio wing_flap_span_ratio design_wing_loading wing_thickness_to_chord_root wing_span fuselage_avg_diameter wing_center_chord landing_lift_coefficient_max : ℝ) : ℝ :=
  if 160 < (vflap_2 sea_level_density design_wing_loading landing_lift_coefficient_max) then
    (((wing_high_lift_mass_coefficient * (dsflap_dfcr wing_area wing_taper_ratio
    wing_flap_span_ratio wing_thickness_to_chord_root wing_span fuselage_avg_diameter
    wing_center_chord)) * ((vflap_2 sea_level_density design_wing_loading
    landing_lift_coefficient_max) ^ ((439 / 200) : ℝ))) / 45180) else
    (((wing_high_lift_mass_coefficient * (dsflap_dfcr wing_area wing_taper_ratio
    wing_flap_span_ratio wing_thickness_to_chord_root wing_span fuselage_avg_diameter
    wing_center_chord)) * (369 / 1000)) * ((vflap_2 sea_level_density design_wing_loading
    landing_lift_coefficient_max) ^ ((2733 / 10000) : ℝ)))

/-- Partial of `flap_mass` with respect to `wing_area` as set by `HighLiftMass`, aviary/subsystems/mass/gasp_based/fixed.py:1870 -/
noncomputable def J_flap_mass__wing_area (sea_level_density wing_high_lift_mass_coefficient wing_flap_chord_ratio wing_taper_ratio wing_flap_span_ratio design_wing_loading wing_thickness_to_chord_root wing_span fuselage_avg_diameter wing_center_chord landing_lift_coefficient_max : ℝ) : ℝ :=
  if 160 < (vflap_2 sea_level_density design_wing_loading landing_lift_coefficient_max) then
    (((wing_high_lift_mass_coefficient * (dsflap_dwa wing_flap_chord_ratio wing_taper_ratio
    wing_flap_span_ratio wing_thickness_to_chord_root wing_span fuselage_avg_diameter
    wing_center_chord)) * ((vflap_2 sea_level_density design_wing_loading
    landing_lift_coefficient_max) ^ ((439 / 200) : ℝ))) / 45180) else
    (((wing_high_lift_mass_coefficient * (dsflap_dwa wing_flap_chord_ratio wing_taper_ratio
    wing_flap_span_ratio wing_thickness_to_chord_root wing_span fuselage_avg_diameter
    wing_center_chord)) * (369 / 1000)) * ((vflap_2 sea_level_density design_wing_loading
    landing_lift_coefficient_max) ^ ((2733 / 10000) : ℝ)))

/-- Partial of `flap_mass` with respect to `wing_flap_span_ratio` as set by `HighLiftMass`, aviary/subsystems/mass/gasp_based/fixed.py:1874 -/
noncomputable def J_flap_mass__wing_flap_span_ratio (sea_level_density wing_high_lift_mass_coefficient wing_area wing_flap_chord_ratio wing_taper_ratio wing_flap_span_ratio design_wing_loading landing_lift_coefficient_max : ℝ) : ℝ :=
  if 160 < (vflap_2 sea_level_density design_wing_loading landing_lift_coefficient_max) then
    (((wing_high_lift_mass_coefficient * (dsflap_dfsr wing_area wing_flap_chord_ratio
    wing_taper_ratio wing_flap_span_ratio)) * ((vflap_2 sea_level_density design_wing_loading
    landing_lift_coefficient_max) ^ ((439 / 200) : ℝ))) / 45180) else
    (((wing_high_lift_mass_coefficient * (dsflap_dfsr wing_area wing_flap_chord_ratio
    wing_taper_ratio wing_flap_span_ratio)) * (369 / 1000)) * ((vflap_2 sea_level_density
    design_wing_loading landing_lift_coefficient_max) ^ ((2733 / 10000) : ℝ)))

/-- Partial of `flap_mass` with respect to `wing_taper_ratio` as set by `HighLiftMass`, aviary/subsystems/mass/gasp_based/fixed.py:1878 -/
noncomputable def J_flap_mass__wing_taper_ratio (sea_level_density wing_high_lift_mass_coefficient wing_area wing_flap_chord_ratio wing_taper_ratio wing_flap_span_ratio design_wing_loading wing_thickness_to_chord_root wing_span fuselage_avg_diameter wing_center_chord landing_lift_coefficient_max : ℝ) : ℝ :=
  if 160 < (vflap_2 sea_level_density design_wing_loading landing_lift_coefficient_max) then
    (((wing_high_lift_mass_coefficient * (dsflap_dtr wing_area wing_flap_chord_ratio
    wing_taper_ratio wing_flap_span_ratio wing_thickness_to_chord_root wing_span
    fuselage_avg_diameter wing_center_chord)) * ((vflap_2 sea_level_density design_wing_loading
    landing_lift_coefficient_max) ^ ((439 / 200) : ℝ))) / 45180) else
    (((wing_high_lift_mass_coefficient * (dsflap_dtr wing_area wing_flap_chord_ratio
    wing_taper_ratio wing_flap_span_ratio wing_thickness_to_chord_root wing_span
    fuselage_avg_diameter wing_center_chord)) * (369 / 1000)) * ((vflap_2 sea_level_density
    design_wing_loading landing_lift_coefficient_max) ^ ((2733 / 10000) : ℝ)))

/-- Partial of `flap_mass` with respect to `wing_span` as set by `HighLiftMass`, aviary/subsystems/mass/gasp_based/fixed.py:1881 -/
noncomputable def J_flap_mass__wing_span (sea_level_density wing_high_lift_mass_coefficient wing_area wing_flap_chord_ratio wing_taper_ratio design_wing_loading wing_thickness_to_chord_root wing_span fuselage_avg_diameter wing_center_chord landing_lift_coefficient_max : ℝ) : ℝ :=
  if 160 < (vflap_2 sea_level_density design_wing_loading landing_lift_coefficient_max) then
    ((((wing_high_lift_mass_coefficient * (dsflap_dbtsr wing_area wing_flap_chord_ratio
    wing_taper_ratio wing_thickness_to_chord_root wing_span fuselage_avg_diameter
    wing_center_chord)) * (dbtsr_dwingspan wing_thickness_to_chord_root wing_span
    fuselage_avg_diameter wing_center_chord)) * ((vflap_2 sea_level_density design_wing_loading
    landing_lift_coefficient_max) ^ ((439 / 200) : ℝ))) / 45180) else
    ((((wing_high_lift_mass_coefficient * (dsflap_dbtsr wing_area wing_flap_chord_ratio
    wing_taper_ratio wing_thickness_to_chord_root wing_span fuselage_avg_diameter
    wing_center_chord)) * (dbtsr_dwingspan wing_thickness_to_chord_root wing_span
    fuselage_avg_diameter wing_center_chord)) * (369 / 1000)) * ((vflap_2 sea_level_density
    design_wing_loading landing_lift_coefficient_max) ^ ((2733 / 10000) : ℝ)))

/-- Partial of `flap_mass` with respect to `wing_thickness_to_chord_root` as set by `HighLiftMass`, aviary/subsystems/mass/gasp_based/fixed.py:1890 -/
noncomputable def J_flap_mass__wing_thickness_to_chord_root (sea_level_density wing_high_lift_mass_coefficient wing_area wing_flap_chord_ratio wing_taper_ratio design_wing_loading wing_thickness_to_chord_root wing_span fuselage_avg_diameter wing_center_chord landing_lift_coefficient_max : ℝ) : ℝ :=
  if 160 < (vflap_2 sea_level_density design_wing_loading landing_lift_coefficient_max) then
    ((((wing_high_lift_mass_coefficient * (dsflap_dbtsr wing_area wing_flap_chord_ratio
    wing_taper_ratio wing_thickness_to_chord_root wing_span fuselage_avg_diameter
    wing_center_chord)) * (dbtsr_dtcrr wing_thickness_to_chord_root wing_span
    fuselage_avg_diameter wing_center_chord)) * ((vflap_2 sea_level_density design_wing_loading
    landing_lift_coefficient_max) ^ ((439 / 200) : ℝ))) / 45180) else
    ((((wing_high_lift_mass_coefficient * (dsflap_dbtsr wing_area wing_flap_chord_ratio
    wing_taper_ratio wing_thickness_to_chord_root wing_span fuselage_avg_diameter
    wing_center_chord)) * (dbtsr_dtcrr wing_thickness_to_chord_root wing_span
    fuselage_avg_diameter wing_center_chord)) * (369 / 1000)) * ((vflap_2 sea_level_density
    design_wing_loading landing_lift_coefficient_max) ^ ((2733 / 10000) : ℝ)))

/-- Partial of `flap_mass` with respect to `wing_center_chord` as set by `HighLiftMass`, aviary/subsystems/mass/gasp_based/fixed.py:1899 -/
noncomputable def J_flap_mass__wing_center_chord (sea_level_density wing_high_lift_mass_coefficient wing_area wing_flap_chord_ratio wing_taper_ratio design_wing_loading wing_thickness_to_chord_root wing_span fuselage_avg_diameter wing_center_chord landing_lift_coefficient_max : ℝ) : ℝ :=
  if 160 < (vflap_2 sea_level_density design_wing_loading landing_lift_coefficient_max) then
    ((((wing_high_lift_mass_coefficient * (dsflap_dbtsr wing_area wing_flap_chord_ratio
    wing_taper_ratio wing_thickness_to_chord_root wing_span fuselage_avg_diameter
    wing_center_chord)) * (dbtsr_dcc wing_thickness_to_chord_root wing_span
    fuselage_avg_diameter wing_center_chord)) * ((vflap_2 sea_level_density design_wing_loading
    landing_lift_coefficient_max) ^ ((439 / 200) : ℝ))) / 45180) else
    ((((wing_high_lift_mass_coefficient * (dsflap_dbtsr wing_area wing_flap_chord_ratio
    wing_taper_ratio wing_thickness_to_chord_root wing_span fuselage_avg_diameter
    wing_center_chord)) * (dbtsr_dcc wing_thickness_to_chord_root wing_span
    fuselage_avg_diameter wing_center_chord)) * (369 / 1000)) * ((vflap_2 sea_level_density
    design_wing_loading landing_lift_coefficient_max) ^ ((2733 / 10000) : ℝ)))

/-- Partial of `flap_mass` with respect to `fuselage_avg_diameter` as set by `HighLiftMass`, aviary/subsystems/mass/gasp_based/fixed.py:1908 -/
noncomputable def J_flap_mass__fuselage_avg_diameter (sea_level_density wing_high_lift_mass_coefficient wing_area wing_flap_chord_ratio wing_taper_ratio design_wing_loading wing_thickness_to_chord_root wing_span fuselage_avg_diameter wing_center_chord landing_lift_coefficient_max : ℝ) : ℝ :=
  if 160 < (vflap_2 sea_level_density design_wing_loading landing_lift_coefficient_max) then
    ((((wing_high_lift_mass_coefficient * (dsflap_dbtsr wing_area wing_flap_chord_ratio
    wing_taper_ratio wing_thickness_to_chord_root wing_span fuselage_avg_diameter
    wing_center_chord)) * (dbtsr_dcw wing_thickness_to_chord_root wing_span
    fuselage_avg_diameter wing_center_chord)) * ((vflap_2 sea_level_density design_wing_loading
    landing_lift_coefficient_max) ^ ((439 / 200) : ℝ))) / 45180) else
    ((((wing_high_lift_mass_coefficient * (dsflap_dbtsr wing_area wing_flap_chord_ratio
    wing_taper_ratio wing_thickness_to_chord_root wing_span fuselage_avg_diameter
    wing_center_chord)) * (dbtsr_dcw wing_thickness_to_chord_root wing_span
    fuselage_avg_diameter wing_center_chord)) * (369 / 1000)) * ((vflap_2 sea_level_density
    design_wing_loading landing_lift_coefficient_max) ^ ((2733 / 10000) : ℝ)))

/-- Partial of `wing_high_lift_mass` with respect to `wing_high_lift_mass_coefficient` as set by `HighLiftMass`, aviary/subsystems/mass/gasp_based/fixed.py:2095 -/
noncomputable def J_wing_high_lift_mass__wing_high_lift_mass_coefficient (sea_level_density wing_area wing_flap_chord_ratio wing_taper_ratio wing_flap_span_ratio design_wing_loading wing_thickness_to_chord_root wing_span fuselage_avg_diameter wing_center_chord landing_lift_coefficient_max : ℝ) : ℝ :=
  if 160 < (vflap_2 sea_level_density design_wing_loading landing_lift_coefficient_max) then
    (((sflap_2 wing_area wing_flap_chord_ratio wing_taper_ratio wing_flap_span_ratio
    wing_thickness_to_chord_root wing_span fuselage_avg_diameter wing_center_chord) * ((vflap_2
    sea_level_density design_wing_loading landing_lift_coefficient_max) ^ ((439 / 200) : ℝ))) /
    45180) else (((sflap_2 wing_area wing_flap_chord_ratio wing_taper_ratio wing_flap_span_ratio
    wing_thickness_to_chord_root wing_span fuselage_avg_diameter wing_center_chord) * (369 /
    1000)) * ((vflap_2 sea_level_density design_wing_loading landing_lift_coefficient_max) ^
    ((2733 / 10000) : ℝ)))

/-- Partial of `wing_high_lift_mass` with respect to `design_wing_loading` as set by `HighLiftMass`, aviary/subsystems/mass/gasp_based/fixed.py:2099 -/
noncomputable def J_wing_high_lift_mass__design_wing_loading (sea_level_density wing_high_lift_mass_coefficient wing_area wing_flap_chord_ratio wing_taper_ratio wing_flap_span_ratio design_wing_loading wing_thickness_to_chord_root wing_span fuselage_avg_diameter wing_center_chord landing_lift_coefficient_max : ℝ) : ℝ :=
  if 160 < (vflap_2 sea_level_density design_wing_loading landing_lift_coefficient_max) then
    (((wing_high_lift_mass_coefficient * (sflap_2 wing_area wing_flap_chord_ratio
    wing_taper_ratio wing_flap_span_ratio wing_thickness_to_chord_root wing_span
    fuselage_avg_diameter wing_center_chord)) * (((439 / 200) * ((vflap_2 sea_level_density
    design_wing_loading landing_lift_coefficient_max) ^ ((239 / 200) : ℝ))) * (dvflap_dwl
    sea_level_density design_wing_loading landing_lift_coefficient_max))) / 45180) else
    (((wing_high_lift_mass_coefficient * (sflap_2 wing_area wing_flap_chord_ratio
    wing_taper_ratio wing_flap_span_ratio wing_thickness_to_chord_root wing_span
    fuselage_avg_diameter wing_center_chord)) * (369 / 1000)) * (((2733 / 10000) * ((vflap_2
    sea_level_density design_wing_loading landing_lift_coefficient_max) ^ ((-(7267 / 10000)) :
    ℝ))) * (dvflap_dwl sea_level_density design_wing_loading landing_lift_coefficient_max)))

/-- Partial of `wing_high_lift_mass` with respect to `landing_lift_coefficient_max` as set by `HighLiftMass`, aviary/subsystems/mass/gasp_based/fixed.py:2102 -/
noncomputable def J_wing_high_lift_mass__landing_lift_coefficient_max (sea_level_density wing_high_lift_mass_coefficient wing_area wing_flap_chord_ratio wing_taper_ratio wing_flap_span_ratio design_wing_loading wing_thickness_to_chord_root wing_span fuselage_avg_diameter wing_center_chord landing_lift_coefficient_max : ℝ) : ℝ :=
  if 160 < (vflap_2 sea_level_density design_wing_loading landing_lift_coefficient_max) then
    (((wing_high_lift_mass_coefficient * (sflap_2 wing_area wing_flap_chord_ratio
    wing_taper_ratio wing_flap_span_ratio wing_thickness_to_chord_root wing_span
    fuselage_avg_diameter wing_center_chord)) * (((439 / 200) * ((vflap_2 sea_level_density
    design_wing_loading landing_lift_coefficient_max) ^ ((239 / 200) : ℝ))) * (dvflap_dcmfl
    sea_level_density design_wing_loading landing_lift_coefficient_max))) / 45180) else
    (((wing_high_lift_mass_coefficient * (sflap_2 wing_area wing_flap_chord_ratio
    wing_taper_ratio wing_flap_span_ratio wing_thickness_to_chord_root wing_span
    fuselage_avg_diameter wing_center_chord)) * (369 / 1000)) * (((2733 / 10000) * ((vflap_2
    sea_level_density design_wing_loading landing_lift_coefficient_max) ^ ((-(7267 / 10000)) :
    ℝ))) * (dvflap_dcmfl sea_level_density design_wing_loading landing_lift_coefficient_max)))

/-- Partial of `wing_high_lift_mass` with respect to `wing_flap_chord_ratio` as set by `HighLiftMass`, aviary/subsystems/mass/gasp_based/fixed.py:2106 -/
noncomputable def J_wing_high_lift_mass__wing_flap_chord_ratio (sea_level_density wing_high_lift_mass_coefficient wing_area wing_taper_ratio wing_flap_span_ratio design_wing_loading wing_thickness_to_chord_root wing_span fuselage_avg_diameter wing_center_chord landing_lift_coefficient_max : ℝ) : ℝ :=
  if 160 < (vflap_2 sea_level_density design_wing_loading landing_lift_coefficient_max) then
    (((wing_high_lift_mass_coefficient * (dsflap_dfcr wing_area wing_taper_ratio
    wing_flap_span_ratio wing_thickness_to_chord_root wing_span fuselage_avg_diameter
    wing_center_chord)) * ((vflap_2 sea_level_density design_wing_loading
    landing_lift_coefficient_max) ^ ((439 / 200) : ℝ))) / 45180) else
    (((wing_high_lift_mass_coefficient * (dsflap_dfcr wing_area wing_taper_ratio
    wing_flap_span_ratio wing_thickness_to_chord_root wing_span fuselage_avg_diameter
    wing_center_chord)) * (369 / 1000)) * ((vflap_2 sea_level_density design_wing_loading
    landing_lift_coefficient_max) ^ ((2733 / 10000) : ℝ)))

/-- Partial of `wing_high_lift_mass` with respect to `wing_slat_chord_ratio` as set by `HighLiftMass`, aviary/subsystems/mass/gasp_based/fixed.py:2110 -/
noncomputable def J_wing_high_lift_mass__wing_slat_chord_ratio (wing_area wing_slat_chord_ratio wing_taper_ratio wing_slat_span_ratio wing_thickness_to_chord_root wing_span fuselage_avg_diameter wing_center_chord : ℝ) : ℝ :=
  ((4633 / 1250) * ((sle_2 wing_area wing_slat_chord_ratio wing_taper_ratio wing_slat_span_ratio
    wing_thickness_to_chord_root wing_span fuselage_avg_diameter wing_center_chord) ^ ((13 /
    100) : ℝ))) * (dsle_dscr wing_area wing_taper_ratio wing_slat_span_ratio
    wing_thickness_to_chord_root wing_span fuselage_avg_diameter wing_center_chord)

/-- Partial of `wing_high_lift_mass` with respect to `wing_area` as set by `HighLiftMass`, aviary/subsystems/mass/gasp_based/fixed.py:2114 -/
noncomputable def J_wing_high_lift_mass__wing_area (sea_level_density wing_high_lift_mass_coefficient wing_area wing_slat_chord_ratio wing_flap_chord_ratio wing_taper_ratio wing_flap_span_ratio wing_slat_span_ratio design_wing_loading wing_thickness_to_chord_root wing_span fuselage_avg_diameter wing_center_chord landing_lift_coefficient_max : ℝ) : ℝ :=
  (if 160 < (vflap_2 sea_level_density design_wing_loading landing_lift_coefficient_max) then
    (((wing_high_lift_mass_coefficient * (dsflap_dwa wing_flap_chord_ratio wing_taper_ratio
    wing_flap_span_ratio wing_thickness_to_chord_root wing_span fuselage_avg_diameter
    wing_center_chord)) * ((vflap_2 sea_level_density design_wing_loading
    landing_lift_coefficient_max) ^ ((439 / 200) : ℝ))) / 45180) else
    (((wing_high_lift_mass_coefficient * (dsflap_dwa wing_flap_chord_ratio wing_taper_ratio
    wing_flap_span_ratio wing_thickness_to_chord_root wing_span fuselage_avg_diameter
    wing_center_chord)) * (369 / 1000)) * ((vflap_2 sea_level_density design_wing_loading
    landing_lift_coefficient_max) ^ ((2733 / 10000) : ℝ)))) + (((4633 / 1250) * ((sle_2
    wing_area wing_slat_chord_ratio wing_taper_ratio wing_slat_span_ratio
    wing_thickness_to_chord_root wing_span fuselage_avg_diameter wing_center_chord) ^ ((13 /
    100) : ℝ))) * (dsle_dwa wing_slat_chord_ratio wing_taper_ratio wing_slat_span_ratio
    wing_thickness_to_chord_root wing_span fuselage_avg_diameter wing_center_chord))

/-- Partial of `wing_high_lift_mass` with respect to `wing_flap_span_ratio` as set by `HighLiftMass`, aviary/subsystems/mass/gasp_based/fixed.py:2118 -/
noncomputable def J_wing_high_lift_mass__wing_flap_span_ratio (sea_level_density wing_high_lift_mass_coefficient wing_area wing_flap_chord_ratio wing_taper_ratio wing_flap_span_ratio design_wing_loading landing_lift_coefficient_max : ℝ) : ℝ :=
  if 160 < (vflap_2 sea_level_density design_wing_loading landing_lift_coefficient_max) then
    (((wing_high_lift_mass_coefficient * (dsflap_dfsr wing_area wing_flap_chord_ratio
    wing_taper_ratio wing_flap_span_ratio)) * ((vflap_2 sea_level_density design_wing_loading
    landing_lift_coefficient_max) ^ ((439 / 200) : ℝ))) / 45180) else
    (((wing_high_lift_mass_coefficient * (dsflap_dfsr wing_area wing_flap_chord_ratio
    wing_taper_ratio wing_flap_span_ratio)) * (369 / 1000)) * ((vflap_2 sea_level_density
    design_wing_loading landing_lift_coefficient_max) ^ ((2733 / 10000) : ℝ)))

/-- Partial of `wing_high_lift_mass` with respect to `wing_slat_span_ratio` as set by `HighLiftMass`, aviary/subsystems/mass/gasp_based/fixed.py:2122 -/
noncomputable def J_wing_high_lift_mass__wing_slat_span_ratio (wing_area wing_slat_chord_ratio wing_taper_ratio wing_slat_span_ratio wing_thickness_to_chord_root wing_span fuselage_avg_diameter wing_center_chord : ℝ) : ℝ :=
  ((4633 / 1250) * ((sle_2 wing_area wing_slat_chord_ratio wing_taper_ratio wing_slat_span_ratio
    wing_thickness_to_chord_root wing_span fuselage_avg_diameter wing_center_chord) ^ ((13 /
    100) : ℝ))) * (dsle_dssr wing_area wing_slat_chord_ratio wing_taper_ratio
    wing_thickness_to_chord_root wing_span fuselage_avg_diameter wing_center_chord)

/-- Partial of `wing_high_lift_mass` with respect to `wing_taper_ratio` as set by `HighLiftMass`, aviary/subsystems/mass/gasp_based/fixed.py:2126 -/
noncomputable def J_wing_high_lift_mass__wing_taper_ratio (sea_level_density wing_high_lift_mass_coefficient wing_area wing_slat_chord_ratio wing_flap_chord_ratio wing_taper_ratio wing_flap_span_ratio wing_slat_span_ratio design_wing_loading wing_thickness_to_chord_root wing_span fuselage_avg_diameter wing_center_chord landing_lift_coefficient_max : ℝ) : ℝ :=
  (if 160 < (vflap_2 sea_level_density design_wing_loading landing_lift_coefficient_max) then
    (((wing_high_lift_mass_coefficient * (dsflap_dtr wing_area wing_flap_chord_ratio
    wing_taper_ratio wing_flap_span_ratio wing_thickness_to_chord_root wing_span
    fuselage_avg_diameter wing_center_chord)) * ((vflap_2 sea_level_density design_wing_loading
    landing_lift_coefficient_max) ^ ((439 / 200) : ℝ))) / 45180) else
    (((wing_high_lift_mass_coefficient * (dsflap_dtr wing_area wing_flap_chord_ratio
    wing_taper_ratio wing_flap_span_ratio wing_thickness_to_chord_root wing_span
    fuselage_avg_diameter wing_center_chord)) * (369 / 1000)) * ((vflap_2 sea_level_density
    design_wing_loading landing_lift_coefficient_max) ^ ((2733 / 10000) : ℝ)))) + (((4633 /
    1250) * ((sle_2 wing_area wing_slat_chord_ratio wing_taper_ratio wing_slat_span_ratio
    wing_thickness_to_chord_root wing_span fuselage_avg_diameter wing_center_chord) ^ ((13 /
    100) : ℝ))) * (dsle_dtr wing_area wing_slat_chord_ratio wing_taper_ratio
    wing_slat_span_ratio wing_thickness_to_chord_root wing_span fuselage_avg_diameter
    wing_center_chord))

/-- Partial of `wing_high_lift_mass` with respect to `wing_span` as set by `HighLiftMass`, aviary/subsystems/mass/gasp_based/fixed.py:2130 -/
noncomputable def J_wing_high_lift_mass__wing_span (sea_level_density wing_high_lift_mass_coefficient wing_area wing_slat_chord_ratio wing_flap_chord_ratio wing_taper_ratio wing_slat_span_ratio design_wing_loading wing_thickness_to_chord_root wing_span fuselage_avg_diameter wing_center_chord landing_lift_coefficient_max : ℝ) : ℝ :=
  (if 160 < (vflap_2 sea_level_density design_wing_loading landing_lift_coefficient_max) then
    ((((wing_high_lift_mass_coefficient * (dsflap_dbtsr wing_area wing_flap_chord_ratio
    wing_taper_ratio wing_thickness_to_chord_root wing_span fuselage_avg_diameter
    wing_center_chord)) * (dbtsr_dwingspan wing_thickness_to_chord_root wing_span
    fuselage_avg_diameter wing_center_chord)) * ((vflap_2 sea_level_density design_wing_loading
    landing_lift_coefficient_max) ^ ((439 / 200) : ℝ))) / 45180) else
    ((((wing_high_lift_mass_coefficient * (dsflap_dbtsr wing_area wing_flap_chord_ratio
    wing_taper_ratio wing_thickness_to_chord_root wing_span fuselage_avg_diameter
    wing_center_chord)) * (dbtsr_dwingspan wing_thickness_to_chord_root wing_span
    fuselage_avg_diameter wing_center_chord)) * (369 / 1000)) * ((vflap_2 sea_level_density
    design_wing_loading landing_lift_coefficient_max) ^ ((2733 / 10000) : ℝ)))) + ((((4633 /
    1250) * ((sle_2 wing_area wing_slat_chord_ratio wing_taper_ratio wing_slat_span_ratio
    wing_thickness_to_chord_root wing_span fuselage_avg_diameter wing_center_chord) ^ ((13 /
    100) : ℝ))) * (dsle_dbtsr wing_area wing_slat_chord_ratio wing_taper_ratio
    wing_slat_span_ratio)) * (dbtsr_dwingspan wing_thickness_to_chord_root wing_span
    fuselage_avg_diameter wing_center_chord))

/-- Partial of `wing_high_lift_mass` with respect to `wing_thickness_to_chord_root` as set by `HighLiftMass`, aviary/subsystems/mass/gasp_based/fixed.py:2134 -/
noncomputable def J_wing_high_lift_mass__wing_thickness_to_chord_root (sea_level_density wing_high_lift_mass_coefficient wing_area wing_slat_chord_ratio wing_flap_chord_ratio wing_taper_ratio wing_slat_span_ratio design_wing_loading wing_thickness_to_chord_root wing_span fuselage_avg_diameter wing_center_chord landing_lift_coefficient_max : ℝ) : ℝ :=
  (if 160 < (vflap_2 sea_level_density design_wing_loading landing_lift_coefficient_max) then
    ((((wing_high_lift_mass_coefficient * (dsflap_dbtsr wing_area wing_flap_chord_ratio
    wing_taper_ratio wing_thickness_to_chord_root wing_span fuselage_avg_diameter
    wing_center_chord)) * (dbtsr_dtcrr wing_thickness_to_chord_root wing_span
    fuselage_avg_diameter wing_center_chord)) * ((vflap_2 sea_level_density design_wing_loading
    landing_lift_coefficient_max) ^ ((439 / 200) : ℝ))) / 45180) else
    ((((wing_high_lift_mass_coefficient * (dsflap_dbtsr wing_area wing_flap_chord_ratio
    wing_taper_ratio wing_thickness_to_chord_root wing_span fuselage_avg_diameter
    wing_center_chord)) * (dbtsr_dtcrr wing_thickness_to_chord_root wing_span
    fuselage_avg_diameter wing_center_chord)) * (369 / 1000)) * ((vflap_2 sea_level_density
    design_wing_loading landing_lift_coefficient_max) ^ ((2733 / 10000) : ℝ)))) + ((((4633 /
    1250) * ((sle_2 wing_area wing_slat_chord_ratio wing_taper_ratio wing_slat_span_ratio
    wing_thickness_to_chord_root wing_span fuselage_avg_diameter wing_center_chord) ^ ((13 /
    100) : ℝ))) * (dsle_dbtsr wing_area wing_slat_chord_ratio wing_taper_ratio
    wing_slat_span_ratio)) * (dbtsr_dtcrr wing_thickness_to_chord_root wing_span
    fuselage_avg_diameter wing_center_chord))

/-- Partial of `wing_high_lift_mass` with respect to `wing_center_chord` as set by `HighLiftMass`, aviary/subsystems/mass/gasp_based/fixed.py:2139 -/
noncomputable def J_wing_high_lift_mass__wing_center_chord (sea_level_density wing_high_lift_mass_coefficient wing_area wing_slat_chord_ratio wing_flap_chord_ratio wing_taper_ratio wing_slat_span_ratio design_wing_loading wing_thickness_to_chord_root wing_span fuselage_avg_diameter wing_center_chord landing_lift_coefficient_max : ℝ) : ℝ :=
  (if 160 < (vflap_2 sea_level_density design_wing_loading landing_lift_coefficient_max) then
    ((((wing_high_lift_mass_coefficient * (dsflap_dbtsr wing_area wing_flap_chord_ratio
    wing_taper_ratio wing_thickness_to_chord_root wing_span fuselage_avg_diameter
    wing_center_chord)) * (dbtsr_dcc wing_thickness_to_chord_root wing_span
    fuselage_avg_diameter wing_center_chord)) * ((vflap_2 sea_level_density design_wing_loading
    landing_lift_coefficient_max) ^ ((439 / 200) : ℝ))) / 45180) else
    ((((wing_high_lift_mass_coefficient * (dsflap_dbtsr wing_area wing_flap_chord_ratio
    wing_taper_ratio wing_thickness_to_chord_root wing_span fuselage_avg_diameter
    wing_center_chord)) * (dbtsr_dcc wing_thickness_to_chord_root wing_span
    fuselage_avg_diameter wing_center_chord)) * (369 / 1000)) * ((vflap_2 sea_level_density
    design_wing_loading landing_lift_coefficient_max) ^ ((2733 / 10000) : ℝ)))) + ((((4633 /
    1250) * ((sle_2 wing_area wing_slat_chord_ratio wing_taper_ratio wing_slat_span_ratio
    wing_thickness_to_chord_root wing_span fuselage_avg_diameter wing_center_chord) ^ ((13 /
    100) : ℝ))) * (dsle_dbtsr wing_area wing_slat_chord_ratio wing_taper_ratio
    wing_slat_span_ratio)) * (dbtsr_dcc wing_thickness_to_chord_root wing_span
    fuselage_avg_diameter wing_center_chord))

/-- Partial of `wing_high_lift_mass` with respect to `fuselage_avg_diameter` as set by `HighLiftMass`, aviary/subsystems/mass/gasp_based/fixed.py:2143 -/
noncomputable def J_wing_high_lift_mass__fuselage_avg_diameter (sea_level_density wing_high_lift_mass_coefficient wing_area wing_slat_chord_ratio wing_flap_chord_ratio wing_taper_ratio wing_slat_span_ratio design_wing_loading wing_thickness_to_chord_root wing_span fuselage_avg_diameter wing_center_chord landing_lift_coefficient_max : ℝ) : ℝ :=
  (if 160 < (vflap_2 sea_level_density design_wing_loading landing_lift_coefficient_max) then
    ((((wing_high_lift_mass_coefficient * (dsflap_dbtsr wing_area wing_flap_chord_ratio
    wing_taper_ratio wing_thickness_to_chord_root wing_span fuselage_avg_diameter
    wing_center_chord)) * (dbtsr_dcw wing_thickness_to_chord_root wing_span
    fuselage_avg_diameter wing_center_chord)) * ((vflap_2 sea_level_density design_wing_loading
    landing_lift_coefficient_max) ^ ((439 / 200) : ℝ))) / 45180) else
    ((((wing_high_lift_mass_coefficient * (dsflap_dbtsr wing_area wing_flap_chord_ratio
    wing_taper_ratio wing_thickness_to_chord_root wing_span fuselage_avg_diameter
    wing_center_chord)) * (dbtsr_dcw wing_thickness_to_chord_root wing_span
    fuselage_avg_diameter wing_center_chord)) * (369 / 1000)) * ((vflap_2 sea_level_density
    design_wing_loading landing_lift_coefficient_max) ^ ((2733 / 10000) : ℝ)))) + ((((4633 /
    1250) * ((sle_2 wing_area wing_slat_chord_ratio wing_taper_ratio wing_slat_span_ratio
    wing_thickness_to_chord_root wing_span fuselage_avg_diameter wing_center_chord) ^ ((13 /
    100) : ℝ))) * (dsle_dbtsr wing_area wing_slat_chord_ratio wing_taper_ratio
    wing_slat_span_ratio)) * (dbtsr_dcw wing_thickness_to_chord_root wing_span
    fuselage_avg_diameter wing_center_chord))

theorem d_flap_mass__wing_high_lift_mass_coefficient (sea_level_density
    wing_high_lift_mass_coefficient wing_area wing_flap_chord_ratio wing_taper_ratio
    wing_flap_span_ratio design_wing_loading wing_thickness_to_chord_root wing_span
    fuselage_avg_diameter wing_center_chord landing_lift_coefficient_max : ℝ) (h0 : 0 <
    sea_level_density) (h1 : 0 < landing_lift_coefficient_max) (h2 : 0 < design_wing_loading) (h3
    : 0 < wing_taper_ratio) (h4 : 0 < wing_thickness_to_chord_root) (h5 : 0 < wing_center_chord)
    (h6 : 0 < fuselage_avg_diameter - (wing_thickness_to_chord_root * wing_center_chord)) (h7 : 0
    < wing_span) :
    HasDerivAt (fun t => out_flap_mass sea_level_density t wing_area wing_flap_chord_ratio wing_taper_ratio wing_flap_span_ratio design_wing_loading wing_thickness_to_chord_root wing_span fuselage_avg_diameter wing_center_chord landing_lift_coefficient_max) (J_flap_mass__wing_high_lift_mass_coefficient sea_level_density wing_area wing_flap_chord_ratio wing_taper_ratio wing_flap_span_ratio design_wing_loading wing_thickness_to_chord_root wing_span fuselage_avg_diameter wing_center_chord landing_lift_coefficient_max) wing_high_lift_mass_coefficient := by
  have e0 : ∀ x : ℝ, 0 < x → x ^ ((439 / 200) : ℝ) = x ^ ((39 / 200) : ℝ) * x ^ 2 := fun x hx => rpow_up hx 2 (by norm_num)
  simp only [out_flap_mass, J_flap_mass__wing_high_lift_mass_coefficient, sflap_2, body_to_span_ratio_2, u1, vflap_2, u2, sflap, body_to_span_ratio, vflap, vstall, sqrt_eq_rpow]
  try split_ifs
  all_goals (apply hasDerivAt_of_eq; on_goal 1 => (repeat' comp_step))
  all_goals try comp_side
  all_goals try simp (disch := first | assumption | positivity) only [e0, div_mul_eq_div_div, div_half, inv_half]
  all_goals try split_ifs
  all_goals try (exfalso; linarith)
  all_goals try simp only [mul_zero, zero_mul, add_zero, zero_add, sub_zero, zero_sub, mul_one, one_mul]
  all_goals try push_cast
  all_goals comp_eq

theorem d_flap_mass__wing_area (sea_level_density wing_high_lift_mass_coefficient wing_area
    wing_flap_chord_ratio wing_taper_ratio wing_flap_span_ratio design_wing_loading
    wing_thickness_to_chord_root wing_span fuselage_avg_diameter wing_center_chord
    landing_lift_coefficient_max : ℝ) (h0 : 0 < sea_level_density) (h1 : 0 <
    landing_lift_coefficient_max) (h2 : 0 < design_wing_loading) (h3 : 0 < wing_taper_ratio) (h4 :
    0 < wing_thickness_to_chord_root) (h5 : 0 < wing_center_chord) (h6 : 0 < fuselage_avg_diameter
    - (wing_thickness_to_chord_root * wing_center_chord)) (h7 : 0 < wing_span) :
    HasDerivAt (fun t => out_flap_mass sea_level_density wing_high_lift_mass_coefficient t wing_flap_chord_ratio wing_taper_ratio wing_flap_span_ratio design_wing_loading wing_thickness_to_chord_root wing_span fuselage_avg_diameter wing_center_chord landing_lift_coefficient_max) (J_flap_mass__wing_area sea_level_density wing_high_lift_mass_coefficient wing_flap_chord_ratio wing_taper_ratio wing_flap_span_ratio design_wing_loading wing_thickness_to_chord_root wing_span fuselage_avg_diameter wing_center_chord landing_lift_coefficient_max) wing_area := by
  have e0 : ∀ x : ℝ, 0 < x → x ^ ((439 / 200) : ℝ) = x ^ ((39 / 200) : ℝ) * x ^ 2 := fun x hx => rpow_up hx 2 (by norm_num)
  simp only [out_flap_mass, J_flap_mass__wing_area, dsflap_dwa, body_to_span_ratio_2, u1, vflap_2, u2, sflap, body_to_span_ratio, vflap, vstall, sqrt_eq_rpow]
  try split_ifs
  all_goals (apply hasDerivAt_of_eq; on_goal 1 => (repeat' comp_step))
  all_goals try comp_side
  all_goals try simp (disch := first | assumption | positivity) only [e0, div_mul_eq_div_div, div_half, inv_half]
  all_goals try split_ifs
  all_goals try (exfalso; linarith)
  all_goals try simp only [mul_zero, zero_mul, add_zero, zero_add, sub_zero, zero_sub, mul_one, one_mul]
  all_goals try push_cast
  all_goals comp_eq

theorem d_flap_mass__wing_flap_chord_ratio (sea_level_density wing_high_lift_mass_coefficient
    wing_area wing_flap_chord_ratio wing_taper_ratio wing_flap_span_ratio design_wing_loading
    wing_thickness_to_chord_root wing_span fuselage_avg_diameter wing_center_chord
    landing_lift_coefficient_max : ℝ) (h0 : 0 < sea_level_density) (h1 : 0 <
    landing_lift_coefficient_max) (h2 : 0 < design_wing_loading) (h3 : 0 < wing_taper_ratio) (h4 :
    0 < wing_thickness_to_chord_root) (h5 : 0 < wing_center_chord) (h6 : 0 < fuselage_avg_diameter
    - (wing_thickness_to_chord_root * wing_center_chord)) (h7 : 0 < wing_span) :
    HasDerivAt (fun t => out_flap_mass sea_level_density wing_high_lift_mass_coefficient wing_area t wing_taper_ratio wing_flap_span_ratio design_wing_loading wing_thickness_to_chord_root wing_span fuselage_avg_diameter wing_center_chord landing_lift_coefficient_max) (J_flap_mass__wing_flap_chord_ratio sea_level_density wing_high_lift_mass_coefficient wing_area wing_taper_ratio wing_flap_span_ratio design_wing_loading wing_thickness_to_chord_root wing_span fuselage_avg_diameter wing_center_chord landing_lift_coefficient_max) wing_flap_chord_ratio := by
  have e0 : ∀ x : ℝ, 0 < x → x ^ ((439 / 200) : ℝ) = x ^ ((39 / 200) : ℝ) * x ^ 2 := fun x hx => rpow_up hx 2 (by norm_num)
  simp only [out_flap_mass, J_flap_mass__wing_flap_chord_ratio, dsflap_dfcr, body_to_span_ratio_2, u1, vflap_2, u2, sflap, body_to_span_ratio, vflap, vstall, sqrt_eq_rpow]
  try split_ifs
  all_goals (apply hasDerivAt_of_eq; on_goal 1 => (repeat' comp_step))
  all_goals try comp_side
  all_goals try simp (disch := first | assumption | positivity) only [e0, div_mul_eq_div_div, div_half, inv_half]
  all_goals try split_ifs
  all_goals try (exfalso; linarith)
  all_goals try simp only [mul_zero, zero_mul, add_zero, zero_add, sub_zero, zero_sub, mul_one, one_mul]
  all_goals try push_cast
  all_goals comp_eq

theorem d_flap_mass__wing_taper_ratio (sea_level_density wing_high_lift_mass_coefficient wing_area
    wing_flap_chord_ratio wing_taper_ratio wing_flap_span_ratio design_wing_loading
    wing_thickness_to_chord_root wing_span fuselage_avg_diameter wing_center_chord
    landing_lift_coefficient_max : ℝ) (h0 : 0 < sea_level_density) (h1 : 0 <
    landing_lift_coefficient_max) (h2 : 0 < design_wing_loading) (h3 : 0 < wing_taper_ratio) (h4 :
    0 < wing_thickness_to_chord_root) (h5 : 0 < wing_center_chord) (h6 : 0 < fuselage_avg_diameter
    - (wing_thickness_to_chord_root * wing_center_chord)) (h7 : 0 < wing_span) :
    HasDerivAt (fun t => out_flap_mass sea_level_density wing_high_lift_mass_coefficient wing_area wing_flap_chord_ratio t wing_flap_span_ratio design_wing_loading wing_thickness_to_chord_root wing_span fuselage_avg_diameter wing_center_chord landing_lift_coefficient_max) (J_flap_mass__wing_taper_ratio sea_level_density wing_high_lift_mass_coefficient wing_area wing_flap_chord_ratio wing_taper_ratio wing_flap_span_ratio design_wing_loading wing_thickness_to_chord_root wing_span fuselage_avg_diameter wing_center_chord landing_lift_coefficient_max) wing_taper_ratio := by
  have e0 : ∀ x : ℝ, 0 < x → x ^ ((439 / 200) : ℝ) = x ^ ((39 / 200) : ℝ) * x ^ 2 := fun x hx => rpow_up hx 2 (by norm_num)
  simp only [out_flap_mass, J_flap_mass__wing_taper_ratio, dsflap_dtr, body_to_span_ratio_2, u1, vflap_2, u2, sflap, body_to_span_ratio, vflap, vstall, sqrt_eq_rpow]
  try split_ifs
  all_goals (apply hasDerivAt_of_eq; on_goal 1 => (repeat' comp_step))
  all_goals try comp_side
  all_goals try simp (disch := first | assumption | positivity) only [e0, div_mul_eq_div_div, div_half, inv_half]
  all_goals try split_ifs
  all_goals try (exfalso; linarith)
  all_goals try simp only [mul_zero, zero_mul, add_zero, zero_add, sub_zero, zero_sub, mul_one, one_mul]
  all_goals try push_cast
  all_goals comp_eq

theorem d_flap_mass__wing_flap_span_ratio (sea_level_density wing_high_lift_mass_coefficient
    wing_area wing_flap_chord_ratio wing_taper_ratio wing_flap_span_ratio design_wing_loading
    wing_thickness_to_chord_root wing_span fuselage_avg_diameter wing_center_chord
    landing_lift_coefficient_max : ℝ) (h0 : 0 < sea_level_density) (h1 : 0 <
    landing_lift_coefficient_max) (h2 : 0 < design_wing_loading) (h3 : 0 < wing_taper_ratio) (h4 :
    0 < wing_thickness_to_chord_root) (h5 : 0 < wing_center_chord) (h6 : 0 < fuselage_avg_diameter
    - (wing_thickness_to_chord_root * wing_center_chord)) (h7 : 0 < wing_span) :
    HasDerivAt (fun t => out_flap_mass sea_level_density wing_high_lift_mass_coefficient wing_area wing_flap_chord_ratio wing_taper_ratio t design_wing_loading wing_thickness_to_chord_root wing_span fuselage_avg_diameter wing_center_chord landing_lift_coefficient_max) (J_flap_mass__wing_flap_span_ratio sea_level_density wing_high_lift_mass_coefficient wing_area wing_flap_chord_ratio wing_taper_ratio wing_flap_span_ratio design_wing_loading landing_lift_coefficient_max) wing_flap_span_ratio := by
  have e0 : ∀ x : ℝ, 0 < x → x ^ ((439 / 200) : ℝ) = x ^ ((39 / 200) : ℝ) * x ^ 2 := fun x hx => rpow_up hx 2 (by norm_num)
  simp only [out_flap_mass, J_flap_mass__wing_flap_span_ratio, dsflap_dfsr, vflap_2, u2, sflap, body_to_span_ratio, vflap, vstall, sqrt_eq_rpow]
  try split_ifs
  all_goals (apply hasDerivAt_of_eq; on_goal 1 => (repeat' comp_step))
  all_goals try comp_side
  all_goals try simp (disch := first | assumption | positivity) only [e0, div_mul_eq_div_div, div_half, inv_half]
  all_goals try split_ifs
  all_goals try (exfalso; linarith)
  all_goals try simp only [mul_zero, zero_mul, add_zero, zero_add, sub_zero, zero_sub, mul_one, one_mul]
  all_goals try push_cast
  all_goals comp_eq

theorem d_flap_mass__wing_thickness_to_chord_root (sea_level_density
    wing_high_lift_mass_coefficient wing_area wing_flap_chord_ratio wing_taper_ratio
    wing_flap_span_ratio design_wing_loading wing_thickness_to_chord_root wing_span
    fuselage_avg_diameter wing_center_chord landing_lift_coefficient_max : ℝ) (h0 : 0 <
    sea_level_density) (h1 : 0 < landing_lift_coefficient_max) (h2 : 0 < design_wing_loading) (h3
    : 0 < wing_taper_ratio) (h4 : 0 < wing_thickness_to_chord_root) (h5 : 0 < wing_center_chord)
    (h6 : 0 < fuselage_avg_diameter - (wing_thickness_to_chord_root * wing_center_chord)) (h7 : 0
    < wing_span) :
    HasDerivAt (fun t => out_flap_mass sea_level_density wing_high_lift_mass_coefficient wing_area wing_flap_chord_ratio wing_taper_ratio wing_flap_span_ratio design_wing_loading t wing_span fuselage_avg_diameter wing_center_chord landing_lift_coefficient_max) (J_flap_mass__wing_thickness_to_chord_root sea_level_density wing_high_lift_mass_coefficient wing_area wing_flap_chord_ratio wing_taper_ratio design_wing_loading wing_thickness_to_chord_root wing_span fuselage_avg_diameter wing_center_chord landing_lift_coefficient_max) wing_thickness_to_chord_root := by
  have e0 : ∀ x : ℝ, 0 < x → x ^ ((439 / 200) : ℝ) = x ^ ((39 / 200) : ℝ) * x ^ 2 := fun x hx => rpow_up hx 2 (by norm_num)
  simp only [out_flap_mass, J_flap_mass__wing_thickness_to_chord_root, dbtsr_dtcrr, dsflap_dbtsr, body_to_span_ratio_2, u1, vflap_2, u2, sflap, body_to_span_ratio, vflap, vstall, sqrt_eq_rpow]
  try split_ifs
  all_goals (apply hasDerivAt_of_eq; on_goal 1 => (repeat' comp_step))
  all_goals try comp_side
  all_goals try simp (disch := first | assumption | positivity) only [e0, div_mul_eq_div_div, div_half, inv_half]
  all_goals try split_ifs
  all_goals try (exfalso; linarith)
  all_goals try simp only [mul_zero, zero_mul, add_zero, zero_add, sub_zero, zero_sub, mul_one, one_mul]
  all_goals try push_cast
  all_goals comp_eq

theorem d_flap_mass__wing_span (sea_level_density wing_high_lift_mass_coefficient wing_area
    wing_flap_chord_ratio wing_taper_ratio wing_flap_span_ratio design_wing_loading
    wing_thickness_to_chord_root wing_span fuselage_avg_diameter wing_center_chord
    landing_lift_coefficient_max : ℝ) (h0 : 0 < sea_level_density) (h1 : 0 <
    landing_lift_coefficient_max) (h2 : 0 < design_wing_loading) (h3 : 0 < wing_taper_ratio) (h4 :
    0 < wing_thickness_to_chord_root) (h5 : 0 < wing_center_chord) (h6 : 0 < fuselage_avg_diameter
    - (wing_thickness_to_chord_root * wing_center_chord)) (h7 : 0 < wing_span) :
    HasDerivAt (fun t => out_flap_mass sea_level_density wing_high_lift_mass_coefficient wing_area wing_flap_chord_ratio wing_taper_ratio wing_flap_span_ratio design_wing_loading wing_thickness_to_chord_root t fuselage_avg_diameter wing_center_chord landing_lift_coefficient_max) (J_flap_mass__wing_span sea_level_density wing_high_lift_mass_coefficient wing_area wing_flap_chord_ratio wing_taper_ratio design_wing_loading wing_thickness_to_chord_root wing_span fuselage_avg_diameter wing_center_chord landing_lift_coefficient_max) wing_span := by
  have e0 : ∀ x : ℝ, 0 < x → x ^ ((439 / 200) : ℝ) = x ^ ((39 / 200) : ℝ) * x ^ 2 := fun x hx => rpow_up hx 2 (by norm_num)
  simp only [out_flap_mass, J_flap_mass__wing_span, dbtsr_dwingspan, dsflap_dbtsr, body_to_span_ratio_2, u1, vflap_2, u2, sflap, body_to_span_ratio, vflap, vstall, sqrt_eq_rpow]
  try split_ifs
  all_goals (apply hasDerivAt_of_eq; on_goal 1 => (repeat' comp_step))
  all_goals try comp_side
  all_goals try simp (disch := first | assumption | positivity) only [e0, div_mul_eq_div_div, div_half, inv_half]
  all_goals try split_ifs
  all_goals try (exfalso; linarith)
  all_goals try simp only [mul_zero, zero_mul, add_zero, zero_add, sub_zero, zero_sub, mul_one, one_mul]
  all_goals try push_cast
  all_goals comp_eq

theorem d_flap_mass__fuselage_avg_diameter (sea_level_density wing_high_lift_mass_coefficient
    wing_area wing_flap_chord_ratio wing_taper_ratio wing_flap_span_ratio design_wing_loading
    wing_thickness_to_chord_root wing_span fuselage_avg_diameter wing_center_chord
    landing_lift_coefficient_max : ℝ) (h0 : 0 < sea_level_density) (h1 : 0 <
    landing_lift_coefficient_max) (h2 : 0 < design_wing_loading) (h3 : 0 < wing_taper_ratio) (h4 :
    0 < wing_thickness_to_chord_root) (h5 : 0 < wing_center_chord) (h6 : 0 < fuselage_avg_diameter
    - (wing_thickness_to_chord_root * wing_center_chord)) (h7 : 0 < wing_span) :
    HasDerivAt (fun t => out_flap_mass sea_level_density wing_high_lift_mass_coefficient wing_area wing_flap_chord_ratio wing_taper_ratio wing_flap_span_ratio design_wing_loading wing_thickness_to_chord_root wing_span t wing_center_chord landing_lift_coefficient_max) (J_flap_mass__fuselage_avg_diameter sea_level_density wing_high_lift_mass_coefficient wing_area wing_flap_chord_ratio wing_taper_ratio design_wing_loading wing_thickness_to_chord_root wing_span fuselage_avg_diameter wing_center_chord landing_lift_coefficient_max) fuselage_avg_diameter := by
  have e0 : ∀ x : ℝ, 0 < x → x ^ ((439 / 200) : ℝ) = x ^ ((39 / 200) : ℝ) * x ^ 2 := fun x hx => rpow_up hx 2 (by norm_num)
  simp only [out_flap_mass, J_flap_mass__fuselage_avg_diameter, dbtsr_dcw, dsflap_dbtsr, body_to_span_ratio_2, u1, vflap_2, u2, sflap, body_to_span_ratio, vflap, vstall, sqrt_eq_rpow]
  try split_ifs
  all_goals (apply hasDerivAt_of_eq; on_goal 1 => (repeat' comp_step))
  all_goals try comp_side
  all_goals try simp (disch := first | assumption | positivity) only [e0, div_mul_eq_div_div, div_half, inv_half]
  all_goals try split_ifs
  all_goals try (exfalso; linarith)
  all_goals try simp only [mul_zero, zero_mul, add_zero, zero_add, sub_zero, zero_sub, mul_one, one_mul]
  all_goals try push_cast
  all_goals comp_eq

theorem d_flap_mass__wing_center_chord (sea_level_density wing_high_lift_mass_coefficient
    wing_area wing_flap_chord_ratio wing_taper_ratio wing_flap_span_ratio design_wing_loading
    wing_thickness_to_chord_root wing_span fuselage_avg_diameter wing_center_chord
    landing_lift_coefficient_max : ℝ) (h0 : 0 < sea_level_density) (h1 : 0 <
    landing_lift_coefficient_max) (h2 : 0 < design_wing_loading) (h3 : 0 < wing_taper_ratio) (h4 :
    0 < wing_thickness_to_chord_root) (h5 : 0 < wing_center_chord) (h6 : 0 < fuselage_avg_diameter
    - (wing_thickness_to_chord_root * wing_center_chord)) (h7 : 0 < wing_span) :
    HasDerivAt (fun t => out_flap_mass sea_level_density wing_high_lift_mass_coefficient wing_area wing_flap_chord_ratio wing_taper_ratio wing_flap_span_ratio design_wing_loading wing_thickness_to_chord_root wing_span fuselage_avg_diameter t landing_lift_coefficient_max) (J_flap_mass__wing_center_chord sea_level_density wing_high_lift_mass_coefficient wing_area wing_flap_chord_ratio wing_taper_ratio design_wing_loading wing_thickness_to_chord_root wing_span fuselage_avg_diameter wing_center_chord landing_lift_coefficient_max) wing_center_chord := by
  have e0 : ∀ x : ℝ, 0 < x → x ^ ((439 / 200) : ℝ) = x ^ ((39 / 200) : ℝ) * x ^ 2 := fun x hx => rpow_up hx 2 (by norm_num)
  simp only [out_flap_mass, J_flap_mass__wing_center_chord, dbtsr_dcc, dsflap_dbtsr, body_to_span_ratio_2, u1, vflap_2, u2, sflap, body_to_span_ratio, vflap, vstall, sqrt_eq_rpow]
  try split_ifs
  all_goals (apply hasDerivAt_of_eq; on_goal 1 => (repeat' comp_step))
  all_goals try comp_side
  all_goals try simp (disch := first | assumption | positivity) only [e0, div_mul_eq_div_div, div_half, inv_half]
  all_goals try split_ifs
  all_goals try (exfalso; linarith)
  all_goals try simp only [mul_zero, zero_mul, add_zero, zero_add, sub_zero, zero_sub, mul_one, one_mul]
  all_goals try push_cast
  all_goals comp_eq

theorem d_wing_high_lift_mass__wing_high_lift_mass_coefficient (sea_level_density
    wing_high_lift_mass_coefficient wing_area wing_slat_chord_ratio wing_flap_chord_ratio
    wing_taper_ratio wing_flap_span_ratio wing_slat_span_ratio design_wing_loading
    wing_thickness_to_chord_root wing_span fuselage_avg_diameter wing_center_chord
    landing_lift_coefficient_max : ℝ) (h0 : 0 < sea_level_density) (h1 : 0 <
    landing_lift_coefficient_max) (h2 : 0 < design_wing_loading) (h3 : 0 < wing_taper_ratio) (h4 :
    0 < wing_thickness_to_chord_root) (h5 : 0 < wing_center_chord) (h6 : 0 < fuselage_avg_diameter
    - (wing_thickness_to_chord_root * wing_center_chord)) (h7 : 0 < wing_span) (h8 : 0 <
    wing_slat_chord_ratio) (h9 : 0 < wing_area) (h10 : 0 < wing_slat_span_ratio) (h11 : 0 < 2 -
    ((1 - wing_taper_ratio) * ((99 / 100) + (((2 * (sqrt ((wing_thickness_to_chord_root *
    wing_center_chord) * (fuselage_avg_diameter - (wing_thickness_to_chord_root *
    wing_center_chord))))) + (2 / 5)) / wing_span)))) :
    HasDerivAt (fun t => out_wing_high_lift_mass sea_level_density t wing_area wing_slat_chord_ratio wing_flap_chord_ratio wing_taper_ratio wing_flap_span_ratio wing_slat_span_ratio design_wing_loading wing_thickness_to_chord_root wing_span fuselage_avg_diameter wing_center_chord landing_lift_coefficient_max) (J_wing_high_lift_mass__wing_high_lift_mass_coefficient sea_level_density wing_area wing_flap_chord_ratio wing_taper_ratio wing_flap_span_ratio design_wing_loading wing_thickness_to_chord_root wing_span fuselage_avg_diameter wing_center_chord landing_lift_coefficient_max) wing_high_lift_mass_coefficient := by
  have e0 : ∀ x : ℝ, 0 < x → x ^ ((113 / 100) : ℝ) = x ^ ((13 / 100) : ℝ) * x ^ 1 := fun x hx => rpow_up hx 1 (by norm_num)
  have e1 : ∀ x : ℝ, 0 < x → x ^ ((439 / 200) : ℝ) = x ^ ((39 / 200) : ℝ) * x ^ 2 := fun x hx => rpow_up hx 2 (by norm_num)
  simp only [out_wing_high_lift_mass, J_wing_high_lift_mass__wing_high_lift_mass_coefficient, sflap_2, body_to_span_ratio_2, u1, vflap_2, u2, wled, sle, sflap, body_to_span_ratio, vflap, vstall, sqrt_eq_rpow]
  try split_ifs
  all_goals (apply hasDerivAt_of_eq; on_goal 1 => (repeat' comp_step))
  all_goals try comp_side
  all_goals try simp (disch := first | assumption | positivity) only [e0, e1, div_mul_eq_div_div, div_half, inv_half]
  all_goals try split_ifs
  all_goals try (exfalso; linarith)
  all_goals try simp only [mul_zero, zero_mul, add_zero, zero_add, sub_zero, zero_sub, mul_one, one_mul]
  all_goals try push_cast
  all_goals comp_eq

theorem d_wing_high_lift_mass__wing_flap_chord_ratio (sea_level_density
    wing_high_lift_mass_coefficient wing_area wing_slat_chord_ratio wing_flap_chord_ratio
    wing_taper_ratio wing_flap_span_ratio wing_slat_span_ratio design_wing_loading
    wing_thickness_to_chord_root wing_span fuselage_avg_diameter wing_center_chord
    landing_lift_coefficient_max : ℝ) (h0 : 0 < sea_level_density) (h1 : 0 <
    landing_lift_coefficient_max) (h2 : 0 < design_wing_loading) (h3 : 0 < wing_taper_ratio) (h4 :
    0 < wing_thickness_to_chord_root) (h5 : 0 < wing_center_chord) (h6 : 0 < fuselage_avg_diameter
    - (wing_thickness_to_chord_root * wing_center_chord)) (h7 : 0 < wing_span) (h8 : 0 <
    wing_slat_chord_ratio) (h9 : 0 < wing_area) (h10 : 0 < wing_slat_span_ratio) (h11 : 0 < 2 -
    ((1 - wing_taper_ratio) * ((99 / 100) + (((2 * (sqrt ((wing_thickness_to_chord_root *
    wing_center_chord) * (fuselage_avg_diameter - (wing_thickness_to_chord_root *
    wing_center_chord))))) + (2 / 5)) / wing_span)))) :
    HasDerivAt (fun t => out_wing_high_lift_mass sea_level_density wing_high_lift_mass_coefficient wing_area wing_slat_chord_ratio t wing_taper_ratio wing_flap_span_ratio wing_slat_span_ratio design_wing_loading wing_thickness_to_chord_root wing_span fuselage_avg_diameter wing_center_chord landing_lift_coefficient_max) (J_wing_high_lift_mass__wing_flap_chord_ratio sea_level_density wing_high_lift_mass_coefficient wing_area wing_taper_ratio wing_flap_span_ratio design_wing_loading wing_thickness_to_chord_root wing_span fuselage_avg_diameter wing_center_chord landing_lift_coefficient_max) wing_flap_chord_ratio := by
  have e0 : ∀ x : ℝ, 0 < x → x ^ ((113 / 100) : ℝ) = x ^ ((13 / 100) : ℝ) * x ^ 1 := fun x hx => rpow_up hx 1 (by norm_num)
  have e1 : ∀ x : ℝ, 0 < x → x ^ ((439 / 200) : ℝ) = x ^ ((39 / 200) : ℝ) * x ^ 2 := fun x hx => rpow_up hx 2 (by norm_num)
  simp only [out_wing_high_lift_mass, J_wing_high_lift_mass__wing_flap_chord_ratio, dsflap_dfcr, body_to_span_ratio_2, u1, vflap_2, u2, wled, sle, sflap, body_to_span_ratio, vflap, vstall, sqrt_eq_rpow]
  try split_ifs
  all_goals (apply hasDerivAt_of_eq; on_goal 1 => (repeat' comp_step))
  all_goals try comp_side
  all_goals try simp (disch := first | assumption | positivity) only [e0, e1, div_mul_eq_div_div, div_half, inv_half]
  all_goals try split_ifs
  all_goals try (exfalso; linarith)
  all_goals try simp only [mul_zero, zero_mul, add_zero, zero_add, sub_zero, zero_sub, mul_one, one_mul]
  all_goals try push_cast
  all_goals comp_eq

theorem d_wing_high_lift_mass__wing_flap_span_ratio (sea_level_density
    wing_high_lift_mass_coefficient wing_area wing_slat_chord_ratio wing_flap_chord_ratio
    wing_taper_ratio wing_flap_span_ratio wing_slat_span_ratio design_wing_loading
    wing_thickness_to_chord_root wing_span fuselage_avg_diameter wing_center_chord
    landing_lift_coefficient_max : ℝ) (h0 : 0 < sea_level_density) (h1 : 0 <
    landing_lift_coefficient_max) (h2 : 0 < design_wing_loading) (h3 : 0 < wing_taper_ratio) (h4 :
    0 < wing_thickness_to_chord_root) (h5 : 0 < wing_center_chord) (h6 : 0 < fuselage_avg_diameter
    - (wing_thickness_to_chord_root * wing_center_chord)) (h7 : 0 < wing_span) (h8 : 0 <
    wing_slat_chord_ratio) (h9 : 0 < wing_area) (h10 : 0 < wing_slat_span_ratio) (h11 : 0 < 2 -
    ((1 - wing_taper_ratio) * ((99 / 100) + (((2 * (sqrt ((wing_thickness_to_chord_root *
    wing_center_chord) * (fuselage_avg_diameter - (wing_thickness_to_chord_root *
    wing_center_chord))))) + (2 / 5)) / wing_span)))) :
    HasDerivAt (fun t => out_wing_high_lift_mass sea_level_density wing_high_lift_mass_coefficient wing_area wing_slat_chord_ratio wing_flap_chord_ratio wing_taper_ratio t wing_slat_span_ratio design_wing_loading wing_thickness_to_chord_root wing_span fuselage_avg_diameter wing_center_chord landing_lift_coefficient_max) (J_wing_high_lift_mass__wing_flap_span_ratio sea_level_density wing_high_lift_mass_coefficient wing_area wing_flap_chord_ratio wing_taper_ratio wing_flap_span_ratio design_wing_loading landing_lift_coefficient_max) wing_flap_span_ratio := by
  have e0 : ∀ x : ℝ, 0 < x → x ^ ((113 / 100) : ℝ) = x ^ ((13 / 100) : ℝ) * x ^ 1 := fun x hx => rpow_up hx 1 (by norm_num)
  have e1 : ∀ x : ℝ, 0 < x → x ^ ((439 / 200) : ℝ) = x ^ ((39 / 200) : ℝ) * x ^ 2 := fun x hx => rpow_up hx 2 (by norm_num)
  simp only [out_wing_high_lift_mass, J_wing_high_lift_mass__wing_flap_span_ratio, dsflap_dfsr, vflap_2, u2, wled, sle, sflap, body_to_span_ratio, vflap, vstall, sqrt_eq_rpow]
  try split_ifs
  all_goals (apply hasDerivAt_of_eq; on_goal 1 => (repeat' comp_step))
  all_goals try comp_side
  all_goals try simp (disch := first | assumption | positivity) only [e0, e1, div_mul_eq_div_div, div_half, inv_half]
  all_goals try split_ifs
  all_goals try (exfalso; linarith)
  all_goals try simp only [mul_zero, zero_mul, add_zero, zero_add, sub_zero, zero_sub, mul_one, one_mul]
  all_goals try push_cast
  all_goals comp_eq

/-- Partial derivatives of `HighLiftMass` that are proved correct (the rest is listed in the header). -/
theorem partials_partial (sea_level_density wing_high_lift_mass_coefficient wing_area
    wing_slat_chord_ratio wing_flap_chord_ratio wing_taper_ratio wing_flap_span_ratio
    wing_slat_span_ratio design_wing_loading wing_thickness_to_chord_root wing_span
    fuselage_avg_diameter wing_center_chord landing_lift_coefficient_max : ℝ) (h0 : 0 <
    sea_level_density) (h1 : 0 < landing_lift_coefficient_max) (h2 : 0 < design_wing_loading) (h3
    : 0 < wing_taper_ratio) (h4 : 0 < wing_thickness_to_chord_root) (h5 : 0 < wing_center_chord)
    (h6 : 0 < fuselage_avg_diameter - (wing_thickness_to_chord_root * wing_center_chord)) (h7 : 0
    < wing_span) (h8 : 0 < wing_slat_chord_ratio) (h9 : 0 < wing_area) (h10 : 0 <
    wing_slat_span_ratio) (h11 : 0 < 2 - ((1 - wing_taper_ratio) * ((99 / 100) + (((2 * (sqrt
    ((wing_thickness_to_chord_root * wing_center_chord) * (fuselage_avg_diameter -
    (wing_thickness_to_chord_root * wing_center_chord))))) + (2 / 5)) / wing_span)))) :
    HasDerivAt (fun t => out_flap_mass sea_level_density t wing_area wing_flap_chord_ratio
      wing_taper_ratio wing_flap_span_ratio design_wing_loading wing_thickness_to_chord_root
      wing_span fuselage_avg_diameter wing_center_chord landing_lift_coefficient_max)
      (J_flap_mass__wing_high_lift_mass_coefficient sea_level_density wing_area
      wing_flap_chord_ratio wing_taper_ratio wing_flap_span_ratio design_wing_loading
      wing_thickness_to_chord_root wing_span fuselage_avg_diameter wing_center_chord
      landing_lift_coefficient_max) wing_high_lift_mass_coefficient ∧
    HasDerivAt (fun t => out_flap_mass sea_level_density wing_high_lift_mass_coefficient t
      wing_flap_chord_ratio wing_taper_ratio wing_flap_span_ratio design_wing_loading
      wing_thickness_to_chord_root wing_span fuselage_avg_diameter wing_center_chord
      landing_lift_coefficient_max) (J_flap_mass__wing_area sea_level_density
      wing_high_lift_mass_coefficient wing_flap_chord_ratio wing_taper_ratio wing_flap_span_ratio
      design_wing_loading wing_thickness_to_chord_root wing_span fuselage_avg_diameter
      wing_center_chord landing_lift_coefficient_max) wing_area ∧
    HasDerivAt (fun t => out_flap_mass sea_level_density wing_high_lift_mass_coefficient wing_area t
      wing_taper_ratio wing_flap_span_ratio design_wing_loading wing_thickness_to_chord_root
      wing_span fuselage_avg_diameter wing_center_chord landing_lift_coefficient_max)
      (J_flap_mass__wing_flap_chord_ratio sea_level_density wing_high_lift_mass_coefficient
      wing_area wing_taper_ratio wing_flap_span_ratio design_wing_loading
      wing_thickness_to_chord_root wing_span fuselage_avg_diameter wing_center_chord
      landing_lift_coefficient_max) wing_flap_chord_ratio ∧
    HasDerivAt (fun t => out_flap_mass sea_level_density wing_high_lift_mass_coefficient wing_area
      wing_flap_chord_ratio t wing_flap_span_ratio design_wing_loading
      wing_thickness_to_chord_root wing_span fuselage_avg_diameter wing_center_chord
      landing_lift_coefficient_max) (J_flap_mass__wing_taper_ratio sea_level_density
      wing_high_lift_mass_coefficient wing_area wing_flap_chord_ratio wing_taper_ratio
      wing_flap_span_ratio design_wing_loading wing_thickness_to_chord_root wing_span
      fuselage_avg_diameter wing_center_chord landing_lift_coefficient_max) wing_taper_ratio ∧
    HasDerivAt (fun t => out_flap_mass sea_level_density wing_high_lift_mass_coefficient wing_area
      wing_flap_chord_ratio wing_taper_ratio t design_wing_loading wing_thickness_to_chord_root
      wing_span fuselage_avg_diameter wing_center_chord landing_lift_coefficient_max)
      (J_flap_mass__wing_flap_span_ratio sea_level_density wing_high_lift_mass_coefficient
      wing_area wing_flap_chord_ratio wing_taper_ratio wing_flap_span_ratio design_wing_loading
      landing_lift_coefficient_max) wing_flap_span_ratio ∧
    HasDerivAt (fun t => out_flap_mass sea_level_density wing_high_lift_mass_coefficient wing_area
      wing_flap_chord_ratio wing_taper_ratio wing_flap_span_ratio design_wing_loading t wing_span
      fuselage_avg_diameter wing_center_chord landing_lift_coefficient_max)
      (J_flap_mass__wing_thickness_to_chord_root sea_level_density wing_high_lift_mass_coefficient
      wing_area wing_flap_chord_ratio wing_taper_ratio design_wing_loading
      wing_thickness_to_chord_root wing_span fuselage_avg_diameter wing_center_chord
      landing_lift_coefficient_max) wing_thickness_to_chord_root ∧
    HasDerivAt (fun t => out_flap_mass sea_level_density wing_high_lift_mass_coefficient wing_area
      wing_flap_chord_ratio wing_taper_ratio wing_flap_span_ratio design_wing_loading
      wing_thickness_to_chord_root t fuselage_avg_diameter wing_center_chord
      landing_lift_coefficient_max) (J_flap_mass__wing_span sea_level_density
      wing_high_lift_mass_coefficient wing_area wing_flap_chord_ratio wing_taper_ratio
      design_wing_loading wing_thickness_to_chord_root wing_span fuselage_avg_diameter
      wing_center_chord landing_lift_coefficient_max) wing_span ∧
    HasDerivAt (fun t => out_flap_mass sea_level_density wing_high_lift_mass_coefficient wing_area
      wing_flap_chord_ratio wing_taper_ratio wing_flap_span_ratio design_wing_loading
      wing_thickness_to_chord_root wing_span t wing_center_chord landing_lift_coefficient_max)
      (J_flap_mass__fuselage_avg_diameter sea_level_density wing_high_lift_mass_coefficient
      wing_area wing_flap_chord_ratio wing_taper_ratio design_wing_loading
      wing_thickness_to_chord_root wing_span fuselage_avg_diameter wing_center_chord
      landing_lift_coefficient_max) fuselage_avg_diameter ∧
    HasDerivAt (fun t => out_flap_mass sea_level_density wing_high_lift_mass_coefficient wing_area
      wing_flap_chord_ratio wing_taper_ratio wing_flap_span_ratio design_wing_loading
      wing_thickness_to_chord_root wing_span fuselage_avg_diameter t landing_lift_coefficient_max)
      (J_flap_mass__wing_center_chord sea_level_density wing_high_lift_mass_coefficient wing_area
      wing_flap_chord_ratio wing_taper_ratio design_wing_loading wing_thickness_to_chord_root
      wing_span fuselage_avg_diameter wing_center_chord landing_lift_coefficient_max)
      wing_center_chord ∧
    HasDerivAt (fun t => out_wing_high_lift_mass sea_level_density t wing_area wing_slat_chord_ratio
      wing_flap_chord_ratio wing_taper_ratio wing_flap_span_ratio wing_slat_span_ratio
      design_wing_loading wing_thickness_to_chord_root wing_span fuselage_avg_diameter
      wing_center_chord landing_lift_coefficient_max)
      (J_wing_high_lift_mass__wing_high_lift_mass_coefficient sea_level_density wing_area
      wing_flap_chord_ratio wing_taper_ratio wing_flap_span_ratio design_wing_loading
      wing_thickness_to_chord_root wing_span fuselage_avg_diameter wing_center_chord
      landing_lift_coefficient_max) wing_high_lift_mass_coefficient ∧
    HasDerivAt (fun t => out_wing_high_lift_mass sea_level_density wing_high_lift_mass_coefficient
      wing_area wing_slat_chord_ratio t wing_taper_ratio wing_flap_span_ratio wing_slat_span_ratio
      design_wing_loading wing_thickness_to_chord_root wing_span fuselage_avg_diameter
      wing_center_chord landing_lift_coefficient_max)
      (J_wing_high_lift_mass__wing_flap_chord_ratio sea_level_density
      wing_high_lift_mass_coefficient wing_area wing_taper_ratio wing_flap_span_ratio
      design_wing_loading wing_thickness_to_chord_root wing_span fuselage_avg_diameter
      wing_center_chord landing_lift_coefficient_max) wing_flap_chord_ratio ∧
    HasDerivAt (fun t => out_wing_high_lift_mass sea_level_density wing_high_lift_mass_coefficient
      wing_area wing_slat_chord_ratio wing_flap_chord_ratio wing_taper_ratio t
      wing_slat_span_ratio design_wing_loading wing_thickness_to_chord_root wing_span
      fuselage_avg_diameter wing_center_chord landing_lift_coefficient_max)
      (J_wing_high_lift_mass__wing_flap_span_ratio sea_level_density
      wing_high_lift_mass_coefficient wing_area wing_flap_chord_ratio wing_taper_ratio
      wing_flap_span_ratio design_wing_loading landing_lift_coefficient_max) wing_flap_span_ratio :=
  ⟨d_flap_mass__wing_high_lift_mass_coefficient _ _ _ _ _ _ _ _ _ _ _ _ h0 h1 h2 h3 h4 h5 h6 h7,
    d_flap_mass__wing_area _ _ _ _ _ _ _ _ _ _ _ _ h0 h1 h2 h3 h4 h5 h6 h7,
    d_flap_mass__wing_flap_chord_ratio _ _ _ _ _ _ _ _ _ _ _ _ h0 h1 h2 h3 h4 h5 h6 h7,
    d_flap_mass__wing_taper_ratio _ _ _ _ _ _ _ _ _ _ _ _ h0 h1 h2 h3 h4 h5 h6 h7,
    d_flap_mass__wing_flap_span_ratio _ _ _ _ _ _ _ _ _ _ _ _ h0 h1 h2 h3 h4 h5 h6 h7,
    d_flap_mass__wing_thickness_to_chord_root _ _ _ _ _ _ _ _ _ _ _ _ h0 h1 h2 h3 h4 h5 h6 h7,
    d_flap_mass__wing_span _ _ _ _ _ _ _ _ _ _ _ _ h0 h1 h2 h3 h4 h5 h6 h7,
    d_flap_mass__fuselage_avg_diameter _ _ _ _ _ _ _ _ _ _ _ _ h0 h1 h2 h3 h4 h5 h6 h7,
    d_flap_mass__wing_center_chord _ _ _ _ _ _ _ _ _ _ _ _ h0 h1 h2 h3 h4 h5 h6 h7,
    d_wing_high_lift_mass__wing_high_lift_mass_coefficient _ _ _ _ _ _ _ _ _ _ _ _ _ _ h0 h1 h2 h3
    h4 h5 h6 h7 h8 h9 h10 h11, d_wing_high_lift_mass__wing_flap_chord_ratio _ _ _ _ _ _ _ _ _ _ _
    _ _ _ h0 h1 h2 h3 h4 h5 h6 h7 h8 h9 h10 h11, d_wing_high_lift_mass__wing_flap_span_ratio _ _ _
    _ _ _ _ _ _ _ _ _ _ _ h0 h1 h2 h3 h4 h5 h6 h7 h8 h9 h10 h11⟩

example : ∃ sea_level_density wing_high_lift_mass_coefficient wing_area wing_slat_chord_ratio
      wing_flap_chord_ratio wing_taper_ratio wing_flap_span_ratio wing_slat_span_ratio
      design_wing_loading wing_thickness_to_chord_root wing_span fuselage_avg_diameter
      wing_center_chord landing_lift_coefficient_max : ℝ,
      0 < sea_level_density ∧
      0 < landing_lift_coefficient_max ∧
      0 < design_wing_loading ∧
      0 < wing_taper_ratio ∧
      0 < wing_thickness_to_chord_root ∧
      0 < wing_center_chord ∧
      0 < fuselage_avg_diameter - (wing_thickness_to_chord_root * wing_center_chord) ∧
      0 < wing_span ∧
      0 < wing_slat_chord_ratio ∧
      0 < wing_area ∧
      0 < wing_slat_span_ratio ∧
      0 < 2 - ((1 - wing_taper_ratio) * ((99 / 100) + (((2 * (sqrt ((wing_thickness_to_chord_root *
        wing_center_chord) * (fuselage_avg_diameter - (wing_thickness_to_chord_root *
        wing_center_chord))))) + (2 / 5)) / wing_span))) :=
  ⟨1, 1, 1, 2, 0, 1, 1, 1, 1, 1, 2, 2, 1, 2, by comp_example, by comp_example, by comp_example, by
    comp_example, by comp_example, by comp_example, by comp_example, by comp_example, by
    comp_example, by comp_example, by comp_example, by comp_example⟩

end Verif.Comp.MassGaspBasedFixed.HighLiftMass_split

namespace Verif.Comp.MassGaspBasedFixed.HighLiftMass_singleslotted
open Real

/-- aviary/subsystems/mass/gasp_based/fixed.py:1452 -/
noncomputable def body_to_span_ratio (wing_thickness_to_chord_root wing_span fuselage_avg_diameter wing_center_chord : ℝ) : ℝ :=
  ((2 * (sqrt ((wing_thickness_to_chord_root * wing_center_chord) * (fuselage_avg_diameter -
    (wing_thickness_to_chord_root * wing_center_chord))))) + (2 / 5)) / wing_span

/-- aviary/subsystems/mass/gasp_based/fixed.py:1458 -/
noncomputable def sflap (wing_area wing_flap_chord_ratio wing_taper_ratio wing_flap_span_ratio wing_thickness_to_chord_root wing_span fuselage_avg_diameter wing_center_chord : ℝ) : ℝ :=
  (((wing_flap_chord_ratio * wing_area) / (1 + wing_taper_ratio)) * (wing_flap_span_ratio -
    (body_to_span_ratio wing_thickness_to_chord_root wing_span fuselage_avg_diameter
    wing_center_chord))) * (2 - ((1 - wing_taper_ratio) * (wing_flap_span_ratio +
    (body_to_span_ratio wing_thickness_to_chord_root wing_span fuselage_avg_diameter
    wing_center_chord))))

/-- aviary/subsystems/mass/gasp_based/fixed.py:1466 -/
noncomputable def sle (wing_area wing_slat_chord_ratio wing_taper_ratio wing_slat_span_ratio wing_thickness_to_chord_root wing_span fuselage_avg_diameter wing_center_chord : ℝ) : ℝ :=
  (((wing_slat_chord_ratio * wing_area) / (1 + wing_taper_ratio)) * wing_slat_span_ratio) * (2 -
    ((1 - wing_taper_ratio) * ((99 / 100) + (body_to_span_ratio wing_thickness_to_chord_root
    wing_span fuselage_avg_diameter wing_center_chord))))

/-- aviary/subsystems/mass/gasp_based/fixed.py:1473 -/
noncomputable def vstall (sea_level_density design_wing_loading landing_lift_coefficient_max : ℝ) : ℝ :=
  (5921 / 10000) * (sqrt ((2 * design_wing_loading) / (sea_level_density *
    landing_lift_coefficient_max)))

/-- aviary/subsystems/mass/gasp_based/fixed.py:1474 -/
noncomputable def vflap (sea_level_density design_wing_loading landing_lift_coefficient_max : ℝ) : ℝ :=
  (9 / 5) * (vstall sea_level_density design_wing_loading landing_lift_coefficient_max)

/-- aviary/subsystems/mass/gasp_based/fixed.py:1477 -/
noncomputable def wled (wing_area wing_slat_chord_ratio wing_taper_ratio wing_slat_span_ratio wing_thickness_to_chord_root wing_span fuselage_avg_diameter wing_center_chord : ℝ) : ℝ :=
  (82 / 25) * ((sle wing_area wing_slat_chord_ratio wing_taper_ratio wing_slat_span_ratio
    wing_thickness_to_chord_root wing_span fuselage_avg_diameter wing_center_chord) ^ ((113 /
    100) : ℝ))

/-- aviary/subsystems/mass/gasp_based/fixed.py:1542 -/
noncomputable def u1 (wing_thickness_to_chord_root fuselage_avg_diameter wing_center_chord : ℝ) : ℝ :=
  (wing_thickness_to_chord_root * wing_center_chord) * (fuselage_avg_diameter -
    (wing_thickness_to_chord_root * wing_center_chord))

/-- aviary/subsystems/mass/gasp_based/fixed.py:1543 -/
noncomputable def body_to_span_ratio_2 (wing_thickness_to_chord_root wing_span fuselage_avg_diameter wing_center_chord : ℝ) : ℝ :=
  ((2 * (sqrt (u1 wing_thickness_to_chord_root fuselage_avg_diameter wing_center_chord))) + (2 /
    5)) / wing_span

/-- aviary/subsystems/mass/gasp_based/fixed.py:1544 -/
noncomputable def dbtsr_dwingspan (wing_thickness_to_chord_root wing_span fuselage_avg_diameter wing_center_chord : ℝ) : ℝ :=
  (-(1 / wing_span)) * (body_to_span_ratio_2 wing_thickness_to_chord_root wing_span
    fuselage_avg_diameter wing_center_chord)

/-- aviary/subsystems/mass/gasp_based/fixed.py:1546 -/
noncomputable def dbtsr_dtcrr (wing_thickness_to_chord_root wing_span fuselage_avg_diameter wing_center_chord : ℝ) : ℝ :=
  ((1 / wing_span) * (1 / (sqrt (u1 wing_thickness_to_chord_root fuselage_avg_diameter
    wing_center_chord)))) * ((wing_center_chord * fuselage_avg_diameter) - ((2 *
    wing_thickness_to_chord_root) * (wing_center_chord ^ 2)))

/-- aviary/subsystems/mass/gasp_based/fixed.py:1552 -/
noncomputable def dbtsr_dcc (wing_thickness_to_chord_root wing_span fuselage_avg_diameter wing_center_chord : ℝ) : ℝ :=
  ((1 / wing_span) * (1 / (sqrt (u1 wing_thickness_to_chord_root fuselage_avg_diameter
    wing_center_chord)))) * ((wing_thickness_to_chord_root * fuselage_avg_diameter) - ((2 *
    (wing_thickness_to_chord_root ^ 2)) * wing_center_chord))

/-- aviary/subsystems/mass/gasp_based/fixed.py:1558 -/
noncomputable def dbtsr_dcw (wing_thickness_to_chord_root wing_span fuselage_avg_diameter wing_center_chord : ℝ) : ℝ :=
  ((1 / wing_span) * (1 / (sqrt (u1 wing_thickness_to_chord_root fuselage_avg_diameter
    wing_center_chord)))) * (wing_thickness_to_chord_root * wing_center_chord)

/-- aviary/subsystems/mass/gasp_based/fixed.py:1560 -/
noncomputable def sflap_2 (wing_area wing_flap_chord_ratio wing_taper_ratio wing_flap_span_ratio wing_thickness_to_chord_root wing_span fuselage_avg_diameter wing_center_chord : ℝ) : ℝ :=
  (((wing_flap_chord_ratio * wing_area) / (1 + wing_taper_ratio)) * (wing_flap_span_ratio -
    (body_to_span_ratio_2 wing_thickness_to_chord_root wing_span fuselage_avg_diameter
    wing_center_chord))) * (2 - ((1 - wing_taper_ratio) * (wing_flap_span_ratio +
    (body_to_span_ratio_2 wing_thickness_to_chord_root wing_span fuselage_avg_diameter
    wing_center_chord))))

/-- aviary/subsystems/mass/gasp_based/fixed.py:1568 -/
noncomputable def dsflap_dfcr (wing_area wing_taper_ratio wing_flap_span_ratio wing_thickness_to_chord_root wing_span fuselage_avg_diameter wing_center_chord : ℝ) : ℝ :=
  ((wing_area / (1 + wing_taper_ratio)) * (wing_flap_span_ratio - (body_to_span_ratio_2
    wing_thickness_to_chord_root wing_span fuselage_avg_diameter wing_center_chord))) * (2 - ((1
    - wing_taper_ratio) * (wing_flap_span_ratio + (body_to_span_ratio_2
    wing_thickness_to_chord_root wing_span fuselage_avg_diameter wing_center_chord))))

/-- aviary/subsystems/mass/gasp_based/fixed.py:1575 -/
noncomputable def dsflap_dwa (wing_flap_chord_ratio wing_taper_ratio wing_flap_span_ratio wing_thickness_to_chord_root wing_span fuselage_avg_diameter wing_center_chord : ℝ) : ℝ :=
  ((wing_flap_chord_ratio / (1 + wing_taper_ratio)) * (wing_flap_span_ratio -
    (body_to_span_ratio_2 wing_thickness_to_chord_root wing_span fuselage_avg_diameter
    wing_center_chord))) * (2 - ((1 - wing_taper_ratio) * (wing_flap_span_ratio +
    (body_to_span_ratio_2 wing_thickness_to_chord_root wing_span fuselage_avg_diameter
    wing_center_chord))))

/-- aviary/subsystems/mass/gasp_based/fixed.py:1582 -/
noncomputable def dsflap_dfsr (wing_area wing_flap_chord_ratio wing_taper_ratio wing_flap_span_ratio : ℝ) : ℝ :=
  (wing_flap_chord_ratio * wing_area) * (((2 / (1 + wing_taper_ratio)) * (1 - (2 *
    wing_flap_span_ratio))) + (2 * wing_flap_span_ratio))

/-- aviary/subsystems/mass/gasp_based/fixed.py:1587 -/
noncomputable def dsflap_dbtsr (wing_area wing_flap_chord_ratio wing_taper_ratio wing_thickness_to_chord_root wing_span fuselage_avg_diameter wing_center_chord : ℝ) : ℝ :=
  (wing_flap_chord_ratio * wing_area) * (((2 / (1 + wing_taper_ratio)) * ((2 *
    (body_to_span_ratio_2 wing_thickness_to_chord_root wing_span fuselage_avg_diameter
    wing_center_chord)) - 1)) - (2 * (body_to_span_ratio_2 wing_thickness_to_chord_root
    wing_span fuselage_avg_diameter wing_center_chord)))

/-- aviary/subsystems/mass/gasp_based/fixed.py:1592 -/
noncomputable def dsflap_dtr (wing_area wing_flap_chord_ratio wing_taper_ratio wing_flap_span_ratio wing_thickness_to_chord_root wing_span fuselage_avg_diameter wing_center_chord : ℝ) : ℝ :=
  ((((wing_flap_chord_ratio * wing_area) * (-2)) / ((1 + wing_taper_ratio) ^ 2)) *
    (wing_flap_span_ratio - (body_to_span_ratio_2 wing_thickness_to_chord_root wing_span
    fuselage_avg_diameter wing_center_chord))) * ((1 - wing_flap_span_ratio) -
    (body_to_span_ratio_2 wing_thickness_to_chord_root wing_span fuselage_avg_diameter
    wing_center_chord))

/-- aviary/subsystems/mass/gasp_based/fixed.py:1601 -/
noncomputable def sle_2 (wing_area wing_slat_chord_ratio wing_taper_ratio wing_slat_span_ratio wing_thickness_to_chord_root wing_span fuselage_avg_diameter wing_center_chord : ℝ) : ℝ :=
  (((wing_slat_chord_ratio * wing_area) / (1 + wing_taper_ratio)) * wing_slat_span_ratio) * (2 -
    ((1 - wing_taper_ratio) * ((99 / 100) + (body_to_span_ratio_2 wing_thickness_to_chord_root
    wing_span fuselage_avg_diameter wing_center_chord))))

/-- aviary/subsystems/mass/gasp_based/fixed.py:1608 -/
noncomputable def dsle_dscr (wing_area wing_taper_ratio wing_slat_span_ratio wing_thickness_to_chord_root wing_span fuselage_avg_diameter wing_center_chord : ℝ) : ℝ :=
  ((wing_area / (1 + wing_taper_ratio)) * wing_slat_span_ratio) * (2 - ((1 - wing_taper_ratio) *
    ((99 / 100) + (body_to_span_ratio_2 wing_thickness_to_chord_root wing_span
    fuselage_avg_diameter wing_center_chord))))

/-- aviary/subsystems/mass/gasp_based/fixed.py:1615 -/
noncomputable def dsle_dwa (wing_slat_chord_ratio wing_taper_ratio wing_slat_span_ratio wing_thickness_to_chord_root wing_span fuselage_avg_diameter wing_center_chord : ℝ) : ℝ :=
  ((wing_slat_chord_ratio / (1 + wing_taper_ratio)) * wing_slat_span_ratio) * (2 - ((1 -
    wing_taper_ratio) * ((99 / 100) + (body_to_span_ratio_2 wing_thickness_to_chord_root
    wing_span fuselage_avg_diameter wing_center_chord))))

/-- aviary/subsystems/mass/gasp_based/fixed.py:1622 -/
noncomputable def dsle_dssr (wing_area wing_slat_chord_ratio wing_taper_ratio wing_thickness_to_chord_root wing_span fuselage_avg_diameter wing_center_chord : ℝ) : ℝ :=
  ((wing_slat_chord_ratio * wing_area) / (1 + wing_taper_ratio)) * (2 - ((1 - wing_taper_ratio)
    * ((99 / 100) + (body_to_span_ratio_2 wing_thickness_to_chord_root wing_span
    fuselage_avg_diameter wing_center_chord))))

/-- aviary/subsystems/mass/gasp_based/fixed.py:1627 -/
noncomputable def dsle_dbtsr (wing_area wing_slat_chord_ratio wing_taper_ratio wing_slat_span_ratio : ℝ) : ℝ :=
  (((-(wing_slat_chord_ratio * wing_area)) / (1 + wing_taper_ratio)) * wing_slat_span_ratio) *
    (1 - wing_taper_ratio)

/-- aviary/subsystems/mass/gasp_based/fixed.py:1633 -/
noncomputable def dsle_dtr (wing_area wing_slat_chord_ratio wing_taper_ratio wing_slat_span_ratio wing_thickness_to_chord_root wing_span fuselage_avg_diameter wing_center_chord : ℝ) : ℝ :=
  ((((2 * wing_slat_chord_ratio) * wing_area) * wing_slat_span_ratio) / ((1 + wing_taper_ratio)
    ^ 2)) * (((99 / 100) + (body_to_span_ratio_2 wing_thickness_to_chord_root wing_span
    fuselage_avg_diameter wing_center_chord)) - 1)

/-- aviary/subsystems/mass/gasp_based/fixed.py:1639 -/
noncomputable def u2 (sea_level_density design_wing_loading landing_lift_coefficient_max : ℝ) : ℝ :=
  (2 * design_wing_loading) / (sea_level_density * landing_lift_coefficient_max)

/-- aviary/subsystems/mass/gasp_based/fixed.py:1640 -/
noncomputable def vflap_2 (sea_level_density design_wing_loading landing_lift_coefficient_max : ℝ) : ℝ :=
  (9 / 5) * ((5921 / 10000) * (sqrt (u2 sea_level_density design_wing_loading
    landing_lift_coefficient_max)))

/-- aviary/subsystems/mass/gasp_based/fixed.py:1641 -/
noncomputable def dvflap_dwl (sea_level_density design_wing_loading landing_lift_coefficient_max : ℝ) : ℝ :=
  ((53289 / 50000) * (1 / (sqrt (u2 sea_level_density design_wing_loading
    landing_lift_coefficient_max)))) * (1 / (sea_level_density * landing_lift_coefficient_max))

/-- aviary/subsystems/mass/gasp_based/fixed.py:1645 -/
noncomputable def dvflap_dcmfl (sea_level_density design_wing_loading landing_lift_coefficient_max : ℝ) : ℝ :=
  ((-(53289 / 50000)) * (1 / (sqrt (u2 sea_level_density design_wing_loading
    landing_lift_coefficient_max)))) * (design_wing_loading / (sea_level_density *
    (landing_lift_coefficient_max ^ 2)))

/-- Output `slat_mass` of `HighLiftMass.compute`, aviary/subsystems/mass/gasp_based/fixed.py:1478 -/
noncomputable def out_slat_mass (wing_area wing_slat_chord_ratio wing_taper_ratio wing_slat_span_ratio wing_thickness_to_chord_root wing_span fuselage_avg_diameter wing_center_chord : ℝ) : ℝ :=
  wled wing_area wing_slat_chord_ratio wing_taper_ratio wing_slat_span_ratio
    wing_thickness_to_chord_root wing_span fuselage_avg_diameter wing_center_chord

/-- Output `flap_mass` of `HighLiftMass.compute`, aviary/subsystems/mass/gasp_based/fixed.py:1504 -/
noncomputable def out_flap_mass (wing_num_flap_segments sea_level_density wing_high_lift_mass_coefficient wing_area wing_flap_chord_ratio wing_taper_ratio wing_flap_span_ratio design_wing_loading wing_thickness_to_chord_root wing_span fuselage_avg_diameter wing_center_chord landing_lift_coefficient_max : ℝ) : ℝ :=
  ((wing_high_lift_mass_coefficient * (((vflap sea_level_density design_wing_loading
    landing_lift_coefficient_max) / 100) ^ 2)) * (sflap wing_area wing_flap_chord_ratio
    wing_taper_ratio wing_flap_span_ratio wing_thickness_to_chord_root wing_span
    fuselage_avg_diameter wing_center_chord)) * (wing_num_flap_segments ^ ((1 / 2) : ℝ))

/-- Output `wing_high_lift_mass` of `HighLiftMass.compute`, aviary/subsystems/mass/gasp_based/fixed.py:1522 -/
noncomputable def out_wing_high_lift_mass (wing_num_flap_segments sea_level_density wing_high_lift_mass_coefficient wing_area wing_slat_chord_ratio wing_flap_chord_ratio wing_taper_ratio wing_flap_span_ratio wing_slat_span_ratio design_wing_loading wing_thickness_to_chord_root wing_span fuselage_avg_diameter wing_center_chord landing_lift_coefficient_max : ℝ) : ℝ :=
  (((wing_high_lift_mass_coefficient * (((vflap sea_level_density design_wing_loading
    landing_lift_coefficient_max) / 100) ^ 2)) * (sflap wing_area wing_flap_chord_ratio
    wing_taper_ratio wing_flap_span_ratio wing_thickness_to_chord_root wing_span
    fuselage_avg_diameter wing_center_chord)) * (wing_num_flap_segments ^ ((1 / 2) : ℝ))) +
    (wled wing_area wing_slat_chord_ratio wing_taper_ratio wing_slat_span_ratio
    wing_thickness_to_chord_root wing_span fuselage_avg_diameter wing_center_chord)

/-- Partial of `slat_mass` with respect to `wing_slat_chord_ratio` as set by `HighLiftMass`, aviary/subsystems/mass/gasp_based/fixed.py:1650 -/
noncomputable def J_slat_mass__wing_slat_chord_ratio (wing_area wing_slat_chord_ratio wing_taper_ratio wing_slat_span_ratio wing_thickness_to_chord_root wing_span fuselage_avg_diameter wing_center_chord : ℝ) : ℝ :=
  ((4633 / 1250) * ((sle_2 wing_area wing_slat_chord_ratio wing_taper_ratio wing_slat_span_ratio
    wing_thickness_to_chord_root wing_span fuselage_avg_diameter wing_center_chord) ^ ((13 /
    100) : ℝ))) * (dsle_dscr wing_area wing_taper_ratio wing_slat_span_ratio
    wing_thickness_to_chord_root wing_span fuselage_avg_diameter wing_center_chord)

/-- Partial of `slat_mass` with respect to `wing_area` as set by `HighLiftMass`, aviary/subsystems/mass/gasp_based/fixed.py:1653 -/
noncomputable def J_slat_mass__wing_area (wing_area wing_slat_chord_ratio wing_taper_ratio wing_slat_span_ratio wing_thickness_to_chord_root wing_span fuselage_avg_diameter wing_center_chord : ℝ) : ℝ :=
  ((4633 / 1250) * ((sle_2 wing_area wing_slat_chord_ratio wing_taper_ratio wing_slat_span_ratio
    wing_thickness_to_chord_root wing_span fuselage_avg_diameter wing_center_chord) ^ ((13 /
    100) : ℝ))) * (dsle_dwa wing_slat_chord_ratio wing_taper_ratio wing_slat_span_ratio
    wing_thickness_to_chord_root wing_span fuselage_avg_diameter wing_center_chord)

/-- Partial of `slat_mass` with respect to `wing_slat_span_ratio` as set by `HighLiftMass`, aviary/subsystems/mass/gasp_based/fixed.py:1654 -/
noncomputable def J_slat_mass__wing_slat_span_ratio (wing_area wing_slat_chord_ratio wing_taper_ratio wing_slat_span_ratio wing_thickness_to_chord_root wing_span fuselage_avg_diameter wing_center_chord : ℝ) : ℝ :=
  ((4633 / 1250) * ((sle_2 wing_area wing_slat_chord_ratio wing_taper_ratio wing_slat_span_ratio
    wing_thickness_to_chord_root wing_span fuselage_avg_diameter wing_center_chord) ^ ((13 /
    100) : ℝ))) * (dsle_dssr wing_area wing_slat_chord_ratio wing_taper_ratio
    wing_thickness_to_chord_root wing_span fuselage_avg_diameter wing_center_chord)

/-- Partial of `slat_mass` with respect to `wing_taper_ratio` as set by `HighLiftMass`, aviary/subsystems/mass/gasp_based/fixed.py:1657 -/
noncomputable def J_slat_mass__wing_taper_ratio (wing_area wing_slat_chord_ratio wing_taper_ratio wing_slat_span_ratio wing_thickness_to_chord_root wing_span fuselage_avg_diameter wing_center_chord : ℝ) : ℝ :=
  ((4633 / 1250) * ((sle_2 wing_area wing_slat_chord_ratio wing_taper_ratio wing_slat_span_ratio
    wing_thickness_to_chord_root wing_span fuselage_avg_diameter wing_center_chord) ^ ((13 /
    100) : ℝ))) * (dsle_dtr wing_area wing_slat_chord_ratio wing_taper_ratio
    wing_slat_span_ratio wing_thickness_to_chord_root wing_span fuselage_avg_diameter
    wing_center_chord)

/-- Partial of `slat_mass` with respect to `wing_span` as set by `HighLiftMass`, aviary/subsystems/mass/gasp_based/fixed.py:1660 -/
noncomputable def J_slat_mass__wing_span (wing_area wing_slat_chord_ratio wing_taper_ratio wing_slat_span_ratio wing_thickness_to_chord_root wing_span fuselage_avg_diameter wing_center_chord : ℝ) : ℝ :=
  (((4633 / 1250) * ((sle_2 wing_area wing_slat_chord_ratio wing_taper_ratio
    wing_slat_span_ratio wing_thickness_to_chord_root wing_span fuselage_avg_diameter
    wing_center_chord) ^ ((13 / 100) : ℝ))) * (dsle_dbtsr wing_area wing_slat_chord_ratio
    wing_taper_ratio wing_slat_span_ratio)) * (dbtsr_dwingspan wing_thickness_to_chord_root
    wing_span fuselage_avg_diameter wing_center_chord)

/-- Partial of `slat_mass` with respect to `wing_thickness_to_chord_root` as set by `HighLiftMass`, aviary/subsystems/mass/gasp_based/fixed.py:1663 -/
noncomputable def J_slat_mass__wing_thickness_to_chord_root (wing_area wing_slat_chord_ratio wing_taper_ratio wing_slat_span_ratio wing_thickness_to_chord_root wing_span fuselage_avg_diameter wing_center_chord : ℝ) : ℝ :=
  (((4633 / 1250) * ((sle_2 wing_area wing_slat_chord_ratio wing_taper_ratio
    wing_slat_span_ratio wing_thickness_to_chord_root wing_span fuselage_avg_diameter
    wing_center_chord) ^ ((13 / 100) : ℝ))) * (dsle_dbtsr wing_area wing_slat_chord_ratio
    wing_taper_ratio wing_slat_span_ratio)) * (dbtsr_dtcrr wing_thickness_to_chord_root
    wing_span fuselage_avg_diameter wing_center_chord)

/-- Partial of `slat_mass` with respect to `wing_center_chord` as set by `HighLiftMass`, aviary/subsystems/mass/gasp_based/fixed.py:1666 -/
noncomputable def J_slat_mass__wing_center_chord (wing_area wing_slat_chord_ratio wing_taper_ratio wing_slat_span_ratio wing_thickness_to_chord_root wing_span fuselage_avg_diameter wing_center_chord : ℝ) : ℝ :=
  (((4633 / 1250) * ((sle_2 wing_area wing_slat_chord_ratio wing_taper_ratio
    wing_slat_span_ratio wing_thickness_to_chord_root wing_span fuselage_avg_diameter
    wing_center_chord) ^ ((13 / 100) : ℝ))) * (dsle_dbtsr wing_area wing_slat_chord_ratio
    wing_taper_ratio wing_slat_span_ratio)) * (dbtsr_dcc wing_thickness_to_chord_root wing_span
    fuselage_avg_diameter wing_center_chord)

/-- Partial of `slat_mass` with respect to `fuselage_avg_diameter` as set by `HighLiftMass`, aviary/subsystems/mass/gasp_based/fixed.py:1669 -/
noncomputable def J_slat_mass__fuselage_avg_diameter (wing_area wing_slat_chord_ratio wing_taper_ratio wing_slat_span_ratio wing_thickness_to_chord_root wing_span fuselage_avg_diameter wing_center_chord : ℝ) : ℝ :=
  (((4633 / 1250) * ((sle_2 wing_area wing_slat_chord_ratio wing_taper_ratio
    wing_slat_span_ratio wing_thickness_to_chord_root wing_span fuselage_avg_diameter
    wing_center_chord) ^ ((13 / 100) : ℝ))) * (dsle_dbtsr wing_area wing_slat_chord_ratio
    wing_taper_ratio wing_slat_span_ratio)) * (dbtsr_dcw wing_thickness_to_chord_root wing_span
    fuselage_avg_diameter wing_center_chord)

/-- Partial of `flap_mass` with respect to `wing_high_lift_mass_coefficient` as set by `HighLiftMass`, aviary/subsystems/mass/gasp_based/fixed.py:1922 -/
noncomputable def J_flap_mass__wing_high_lift_mass_coefficient (wing_num_flap_segments sea_level_density wing_area wing_flap_chord_ratio wing_taper_ratio wing_flap_span_ratio design_wing_loading wing_thickness_to_chord_root wing_span fuselage_avg_diameter wing_center_chord landing_lift_coefficient_max : ℝ) : ℝ :=
  ((((vflap_2 sea_level_density design_wing_loading landing_lift_coefficient_max) / 100) ^ 2) *
    (sflap_2 wing_area wing_flap_chord_ratio wing_taper_ratio wing_flap_span_ratio
    wing_thickness_to_chord_root wing_span fuselage_avg_diameter wing_center_chord)) *
    (wing_num_flap_segments ^ ((1 / 2) : ℝ))

/-- Partial of `flap_mass` with respect to `design_wing_loading` as set by `HighLiftMass`, aviary/subsystems/mass/gasp_based/fixed.py:1925 -/
noncomputable def J_flap_mass__design_wing_loading (wing_num_flap_segments sea_level_density wing_high_lift_mass_coefficient wing_area wing_flap_chord_ratio wing_taper_ratio wing_flap_span_ratio design_wing_loading wing_thickness_to_chord_root wing_span fuselage_avg_diameter wing_center_chord landing_lift_coefficient_max : ℝ) : ℝ :=
  (((wing_high_lift_mass_coefficient * ((2 * (vflap_2 sea_level_density design_wing_loading
    landing_lift_coefficient_max)) / 10000)) * (dvflap_dwl sea_level_density design_wing_loading
    landing_lift_coefficient_max)) * (sflap_2 wing_area wing_flap_chord_ratio wing_taper_ratio
    wing_flap_span_ratio wing_thickness_to_chord_root wing_span fuselage_avg_diameter
    wing_center_chord)) * (wing_num_flap_segments ^ ((1 / 2) : ℝ))

/-- Partial of `flap_mass` with respect to `landing_lift_coefficient_max` as set by `HighLiftMass`, aviary/subsystems/mass/gasp_based/fixed.py:1933 -/
noncomputable def J_flap_mass__landing_lift_coefficient_max (wing_num_flap_segments sea_level_density wing_high_lift_mass_coefficient wing_area wing_flap_chord_ratio wing_taper_ratio wing_flap_span_ratio design_wing_loading wing_thickness_to_chord_root wing_span fuselage_avg_diameter wing_center_chord landing_lift_coefficient_max : ℝ) : ℝ :=
  (((wing_high_lift_mass_coefficient * ((2 * (vflap_2 sea_level_density design_wing_loading
    landing_lift_coefficient_max)) / 10000)) * (dvflap_dcmfl sea_level_density
    design_wing_loading landing_lift_coefficient_max)) * (sflap_2 wing_area
    wing_flap_chord_ratio wing_taper_ratio wing_flap_span_ratio wing_thickness_to_chord_root
    wing_span fuselage_avg_diameter wing_center_chord)) * (wing_num_flap_segments ^ ((1 / 2) :
    ℝ))

/-- Partial of `flap_mass` with respect to `wing_flap_chord_ratio` as set by `HighLiftMass`, aviary/subsystems/mass/gasp_based/fixed.py:1941 -/
noncomputable def J_flap_mass__wing_flap_chord_ratio (wing_num_flap_segments sea_level_density wing_high_lift_mass_coefficient wing_area wing_taper_ratio wing_flap_span_ratio design_wing_loading wing_thickness_to_chord_root wing_span fuselage_avg_diameter wing_center_chord landing_lift_coefficient_max : ℝ) : ℝ :=
  ((wing_high_lift_mass_coefficient * (((vflap_2 sea_level_density design_wing_loading
    landing_lift_coefficient_max) / 100) ^ 2)) * (dsflap_dfcr wing_area wing_taper_ratio
    wing_flap_span_ratio wing_thickness_to_chord_root wing_span fuselage_avg_diameter
    wing_center_chord)) * (wing_num_flap_segments ^ ((1 / 2) : ℝ))

/-- Partial of `flap_mass` with respect to `wing_area` as set by `HighLiftMass`, aviary/subsystems/mass/gasp_based/fixed.py:1948 -/
noncomputable def J_flap_mass__wing_area (wing_num_flap_segments sea_level_density wing_high_lift_mass_coefficient wing_flap_chord_ratio wing_taper_ratio wing_flap_span_ratio design_wing_loading wing_thickness_to_chord_root wing_span fuselage_avg_diameter wing_center_chord landing_lift_coefficient_max : ℝ) : ℝ :=
  ((wing_high_lift_mass_coefficient * (((vflap_2 sea_level_density design_wing_loading
    landing_lift_coefficient_max) / 100) ^ 2)) * (dsflap_dwa wing_flap_chord_ratio
    wing_taper_ratio wing_flap_span_ratio wing_thickness_to_chord_root wing_span
    fuselage_avg_diameter wing_center_chord)) * (wing_num_flap_segments ^ ((1 / 2) : ℝ))

/-- Partial of `flap_mass` with respect to `wing_flap_span_ratio` as set by `HighLiftMass`, aviary/subsystems/mass/gasp_based/fixed.py:1955 -/
noncomputable def J_flap_mass__wing_flap_span_ratio (wing_num_flap_segments sea_level_density wing_high_lift_mass_coefficient wing_area wing_flap_chord_ratio wing_taper_ratio wing_flap_span_ratio design_wing_loading landing_lift_coefficient_max : ℝ) : ℝ :=
  ((wing_high_lift_mass_coefficient * (((vflap_2 sea_level_density design_wing_loading
    landing_lift_coefficient_max) / 100) ^ 2)) * (dsflap_dfsr wing_area wing_flap_chord_ratio
    wing_taper_ratio wing_flap_span_ratio)) * (wing_num_flap_segments ^ ((1 / 2) : ℝ))

/-- Partial of `flap_mass` with respect to `wing_taper_ratio` as set by `HighLiftMass`, aviary/subsystems/mass/gasp_based/fixed.py:1962 -/
noncomputable def J_flap_mass__wing_taper_ratio (wing_num_flap_segments sea_level_density wing_high_lift_mass_coefficient wing_area wing_flap_chord_ratio wing_taper_ratio wing_flap_span_ratio design_wing_loading wing_thickness_to_chord_root wing_span fuselage_avg_diameter wing_center_chord landing_lift_coefficient_max : ℝ) : ℝ :=
  ((wing_high_lift_mass_coefficient * (((vflap_2 sea_level_density design_wing_loading
    landing_lift_coefficient_max) / 100) ^ 2)) * (dsflap_dtr wing_area wing_flap_chord_ratio
    wing_taper_ratio wing_flap_span_ratio wing_thickness_to_chord_root wing_span
    fuselage_avg_diameter wing_center_chord)) * (wing_num_flap_segments ^ ((1 / 2) : ℝ))

/-- Partial of `flap_mass` with respect to `wing_span` as set by `HighLiftMass`, aviary/subsystems/mass/gasp_based/fixed.py:1969 -/
noncomputable def J_flap_mass__wing_span (wing_num_flap_segments sea_level_density wing_high_lift_mass_coefficient wing_area wing_flap_chord_ratio wing_taper_ratio design_wing_loading wing_thickness_to_chord_root wing_span fuselage_avg_diameter wing_center_chord landing_lift_coefficient_max : ℝ) : ℝ :=
  (((wing_high_lift_mass_coefficient * (((vflap_2 sea_level_density design_wing_loading
    landing_lift_coefficient_max) / 100) ^ 2)) * (dsflap_dbtsr wing_area wing_flap_chord_ratio
    wing_taper_ratio wing_thickness_to_chord_root wing_span fuselage_avg_diameter
    wing_center_chord)) * (dbtsr_dwingspan wing_thickness_to_chord_root wing_span
    fuselage_avg_diameter wing_center_chord)) * (wing_num_flap_segments ^ ((1 / 2) : ℝ))

/-- Partial of `flap_mass` with respect to `wing_thickness_to_chord_root` as set by `HighLiftMass`, aviary/subsystems/mass/gasp_based/fixed.py:1978 -/
noncomputable def J_flap_mass__wing_thickness_to_chord_root (wing_num_flap_segments sea_level_density wing_high_lift_mass_coefficient wing_area wing_flap_chord_ratio wing_taper_ratio design_wing_loading wing_thickness_to_chord_root wing_span fuselage_avg_diameter wing_center_chord landing_lift_coefficient_max : ℝ) : ℝ :=
  (((wing_high_lift_mass_coefficient * (((vflap_2 sea_level_density design_wing_loading
    landing_lift_coefficient_max) / 100) ^ 2)) * (dsflap_dbtsr wing_area wing_flap_chord_ratio
    wing_taper_ratio wing_thickness_to_chord_root wing_span fuselage_avg_diameter
    wing_center_chord)) * (dbtsr_dtcrr wing_thickness_to_chord_root wing_span
    fuselage_avg_diameter wing_center_chord)) * (wing_num_flap_segments ^ ((1 / 2) : ℝ))

/-- Partial of `flap_mass` with respect to `wing_center_chord` as set by `HighLiftMass`, aviary/subsystems/mass/gasp_based/fixed.py:1987 -/
noncomputable def J_flap_mass__wing_center_chord (wing_num_flap_segments sea_level_density wing_high_lift_mass_coefficient wing_area wing_flap_chord_ratio wing_taper_ratio design_wing_loading wing_thickness_to_chord_root wing_span fuselage_avg_diameter wing_center_chord landing_lift_coefficient_max : ℝ) : ℝ :=
  (((wing_high_lift_mass_coefficient * (((vflap_2 sea_level_density design_wing_loading
    landing_lift_coefficient_max) / 100) ^ 2)) * (dsflap_dbtsr wing_area wing_flap_chord_ratio
    wing_taper_ratio wing_thickness_to_chord_root wing_span fuselage_avg_diameter
    wing_center_chord)) * (dbtsr_dcc wing_thickness_to_chord_root wing_span
    fuselage_avg_diameter wing_center_chord)) * (wing_num_flap_segments ^ ((1 / 2) : ℝ))

/-- Partial of `flap_mass` with respect to `fuselage_avg_diameter` as set by `HighLiftMass`, aviary/subsystems/mass/gasp_based/fixed.py:1995 -/
noncomputable def J_flap_mass__fuselage_avg_diameter (wing_num_flap_segments sea_level_density wing_high_lift_mass_coefficient wing_area wing_flap_chord_ratio wing_taper_ratio design_wing_loading wing_thickness_to_chord_root wing_span fuselage_avg_diameter wing_center_chord landing_lift_coefficient_max : ℝ) : ℝ :=
  (((wing_high_lift_mass_coefficient * (((vflap_2 sea_level_density design_wing_loading
    landing_lift_coefficient_max) / 100) ^ 2)) * (dsflap_dbtsr wing_area wing_flap_chord_ratio
    wing_taper_ratio wing_thickness_to_chord_root wing_span fuselage_avg_diameter
    wing_center_chord)) * (dbtsr_dcw wing_thickness_to_chord_root wing_span
    fuselage_avg_diameter wing_center_chord)) * (wing_num_flap_segments ^ ((1 / 2) : ℝ))

/-- Partial of `wing_high_lift_mass` with respect to `wing_high_lift_mass_coefficient` as set by `HighLiftMass`, aviary/subsystems/mass/gasp_based/fixed.py:2095 -/
noncomputable def J_wing_high_lift_mass__wing_high_lift_mass_coefficient (wing_num_flap_segments sea_level_density wing_area wing_flap_chord_ratio wing_taper_ratio wing_flap_span_ratio design_wing_loading wing_thickness_to_chord_root wing_span fuselage_avg_diameter wing_center_chord landing_lift_coefficient_max : ℝ) : ℝ :=
  ((((vflap_2 sea_level_density design_wing_loading landing_lift_coefficient_max) / 100) ^ 2) *
    (sflap_2 wing_area wing_flap_chord_ratio wing_taper_ratio wing_flap_span_ratio
    wing_thickness_to_chord_root wing_span fuselage_avg_diameter wing_center_chord)) *
    (wing_num_flap_segments ^ ((1 / 2) : ℝ))

/-- Partial of `wing_high_lift_mass` with respect to `design_wing_loading` as set by `HighLiftMass`, aviary/subsystems/mass/gasp_based/fixed.py:2099 -/
noncomputable def J_wing_high_lift_mass__design_wing_loading (wing_num_flap_segments sea_level_density wing_high_lift_mass_coefficient wing_area wing_flap_chord_ratio wing_taper_ratio wing_flap_span_ratio design_wing_loading wing_thickness_to_chord_root wing_span fuselage_avg_diameter wing_center_chord landing_lift_coefficient_max : ℝ) : ℝ :=
  (((wing_high_lift_mass_coefficient * ((2 * (vflap_2 sea_level_density design_wing_loading
    landing_lift_coefficient_max)) / 10000)) * (dvflap_dwl sea_level_density design_wing_loading
    landing_lift_coefficient_max)) * (sflap_2 wing_area wing_flap_chord_ratio wing_taper_ratio
    wing_flap_span_ratio wing_thickness_to_chord_root wing_span fuselage_avg_diameter
    wing_center_chord)) * (wing_num_flap_segments ^ ((1 / 2) : ℝ))

/-- Partial of `wing_high_lift_mass` with respect to `landing_lift_coefficient_max` as set by `HighLiftMass`, aviary/subsystems/mass/gasp_based/fixed.py:2102 -/
noncomputable def J_wing_high_lift_mass__landing_lift_coefficient_max (wing_num_flap_segments sea_level_density wing_high_lift_mass_coefficient wing_area wing_flap_chord_ratio wing_taper_ratio wing_flap_span_ratio design_wing_loading wing_thickness_to_chord_root wing_span fuselage_avg_diameter wing_center_chord landing_lift_coefficient_max : ℝ) : ℝ :=
  (((wing_high_lift_mass_coefficient * ((2 * (vflap_2 sea_level_density design_wing_loading
    landing_lift_coefficient_max)) / 10000)) * (dvflap_dcmfl sea_level_density
    design_wing_loading landing_lift_coefficient_max)) * (sflap_2 wing_area
    wing_flap_chord_ratio wing_taper_ratio wing_flap_span_ratio wing_thickness_to_chord_root
    wing_span fuselage_avg_diameter wing_center_chord)) * (wing_num_flap_segments ^ ((1 / 2) :
    ℝ))

/-- Partial of `wing_high_lift_mass` with respect to `wing_flap_chord_ratio` as set by `HighLiftMass`, aviary/subsystems/mass/gasp_based/fixed.py:2106 -/
noncomputable def J_wing_high_lift_mass__wing_flap_chord_ratio (wing_num_flap_segments sea_level_density wing_high_lift_mass_coefficient wing_area wing_taper_ratio wing_flap_span_ratio design_wing_loading wing_thickness_to_chord_root wing_span fuselage_avg_diameter wing_center_chord landing_lift_coefficient_max : ℝ) : ℝ :=
  ((wing_high_lift_mass_coefficient * (((vflap_2 sea_level_density design_wing_loading
    landing_lift_coefficient_max) / 100) ^ 2)) * (dsflap_dfcr wing_area wing_taper_ratio
    wing_flap_span_ratio wing_thickness_to_chord_root wing_span fuselage_avg_diameter
    wing_center_chord)) * (wing_num_flap_segments ^ ((1 / 2) : ℝ))

/-- Partial of `wing_high_lift_mass` with respect to `wing_slat_chord_ratio` as set by `HighLiftMass`, aviary/subsystems/mass/gasp_based/fixed.py:2110 -/
noncomputable def J_wing_high_lift_mass__wing_slat_chord_ratio (wing_area wing_slat_chord_ratio wing_taper_ratio wing_slat_span_ratio wing_thickness_to_chord_root wing_span fuselage_avg_diameter wing_center_chord : ℝ) : ℝ :=
  ((4633 / 1250) * ((sle_2 wing_area wing_slat_chord_ratio wing_taper_ratio wing_slat_span_ratio
    wing_thickness_to_chord_root wing_span fuselage_avg_diameter wing_center_chord) ^ ((13 /
    100) : ℝ))) * (dsle_dscr wing_area wing_taper_ratio wing_slat_span_ratio
    wing_thickness_to_chord_root wing_span fuselage_avg_diameter wing_center_chord)

/-- Partial of `wing_high_lift_mass` with respect to `wing_area` as set by `HighLiftMass`, aviary/subsystems/mass/gasp_based/fixed.py:2114 -/
noncomputable def J_wing_high_lift_mass__wing_area (wing_num_flap_segments sea_level_density wing_high_lift_mass_coefficient wing_area wing_slat_chord_ratio wing_flap_chord_ratio wing_taper_ratio wing_flap_span_ratio wing_slat_span_ratio design_wing_loading wing_thickness_to_chord_root wing_span fuselage_avg_diameter wing_center_chord landing_lift_coefficient_max : ℝ) : ℝ :=
  (((wing_high_lift_mass_coefficient * (((vflap_2 sea_level_density design_wing_loading
    landing_lift_coefficient_max) / 100) ^ 2)) * (dsflap_dwa wing_flap_chord_ratio
    wing_taper_ratio wing_flap_span_ratio wing_thickness_to_chord_root wing_span
    fuselage_avg_diameter wing_center_chord)) * (wing_num_flap_segments ^ ((1 / 2) : ℝ))) +
    (((4633 / 1250) * ((sle_2 wing_area wing_slat_chord_ratio wing_taper_ratio
    wing_slat_span_ratio wing_thickness_to_chord_root wing_span fuselage_avg_diameter
    wing_center_chord) ^ ((13 / 100) : ℝ))) * (dsle_dwa wing_slat_chord_ratio wing_taper_ratio
    wing_slat_span_ratio wing_thickness_to_chord_root wing_span fuselage_avg_diameter
    wing_center_chord))

/-- Partial of `wing_high_lift_mass` with respect to `wing_flap_span_ratio` as set by `HighLiftMass`, aviary/subsystems/mass/gasp_based/fixed.py:2118 -/
noncomputable def J_wing_high_lift_mass__wing_flap_span_ratio (wing_num_flap_segments sea_level_density wing_high_lift_mass_coefficient wing_area wing_flap_chord_ratio wing_taper_ratio wing_flap_span_ratio design_wing_loading landing_lift_coefficient_max : ℝ) : ℝ :=
  ((wing_high_lift_mass_coefficient * (((vflap_2 sea_level_density design_wing_loading
    landing_lift_coefficient_max) / 100) ^ 2)) * (dsflap_dfsr wing_area wing_flap_chord_ratio
    wing_taper_ratio wing_flap_span_ratio)) * (wing_num_flap_segments ^ ((1 / 2) : ℝ))

/-- Partial of `wing_high_lift_mass` with respect to `wing_slat_span_ratio` as set by `HighLiftMass`, aviary/subsystems/mass/gasp_based/fixed.py:2122 -/
noncomputable def J_wing_high_lift_mass__wing_slat_span_ratio (wing_area wing_slat_chord_ratio wing_taper_ratio wing_slat_span_ratio wing_thickness_to_chord_root wing_span fuselage_avg_diameter wing_center_chord : ℝ) : ℝ :=
  ((4633 / 1250) * ((sle_2 wing_area wing_slat_chord_ratio wing_taper_ratio wing_slat_span_ratio
    wing_thickness_to_chord_root wing_span fuselage_avg_diameter wing_center_chord) ^ ((13 /
    100) : ℝ))) * (dsle_dssr wing_area wing_slat_chord_ratio wing_taper_ratio
    wing_thickness_to_chord_root wing_span fuselage_avg_diameter wing_center_chord)

/-- Partial of `wing_high_lift_mass` with respect to `wing_taper_ratio` as set by `HighLiftMass`, aviary/subsystems/mass/gasp_based/fixed.py:2126 -/
noncomputable def J_wing_high_lift_mass__wing_taper_ratio (wing_num_flap_segments sea_level_density wing_high_lift_mass_coefficient wing_area wing_slat_chord_ratio wing_flap_chord_ratio wing_taper_ratio wing_flap_span_ratio wing_slat_span_ratio design_wing_loading wing_thickness_to_chord_root wing_span fuselage_avg_diameter wing_center_chord landing_lift_coefficient_max : ℝ) : ℝ :=
  (((wing_high_lift_mass_coefficient * (((vflap_2 sea_level_density design_wing_loading
    landing_lift_coefficient_max) / 100) ^ 2)) * (dsflap_dtr wing_area wing_flap_chord_ratio
    wing_taper_ratio wing_flap_span_ratio wing_thickness_to_chord_root wing_span
    fuselage_avg_diameter wing_center_chord)) * (wing_num_flap_segments ^ ((1 / 2) : ℝ))) +
    (((4633 / 1250) * ((sle_2 wing_area wing_slat_chord_ratio wing_taper_ratio
    wing_slat_span_ratio wing_thickness_to_chord_root wing_span fuselage_avg_diameter
    wing_center_chord) ^ ((13 / 100) : ℝ))) * (dsle_dtr wing_area wing_slat_chord_ratio
    wing_taper_ratio wing_slat_span_ratio wing_thickness_to_chord_root wing_span
    fuselage_avg_diameter wing_center_chord))

/-- Partial of `wing_high_lift_mass` with respect to `wing_span` as set by `HighLiftMass`, aviary/subsystems/mass/gasp_based/fixed.py:2130 -/
noncomputable def J_wing_high_lift_mass__wing_span (wing_num_flap_segments sea_level_density wing_high_lift_mass_coefficient wing_area wing_slat_chord_ratio wing_flap_chord_ratio wing_taper_ratio wing_slat_span_ratio design_wing_loading wing_thickness_to_chord_root wing_span fuselage_avg_diameter wing_center_chord landing_lift_coefficient_max : ℝ) : ℝ :=
  ((((wing_high_lift_mass_coefficient * (((vflap_2 sea_level_density design_wing_loading
    landing_lift_coefficient_max) / 100) ^ 2)) * (dsflap_dbtsr wing_area wing_flap_chord_ratio
    wing_taper_ratio wing_thickness_to_chord_root wing_span fuselage_avg_diameter
    wing_center_chord)) * (dbtsr_dwingspan wing_thickness_to_chord_root wing_span
    fuselage_avg_diameter wing_center_chord)) * (wing_num_flap_segments ^ ((1 / 2) : ℝ))) +
    ((((4633 / 1250) * ((sle_2 wing_area wing_slat_chord_ratio wing_taper_ratio
    wing_slat_span_ratio wing_thickness_to_chord_root wing_span fuselage_avg_diameter
    wing_center_chord) ^ ((13 / 100) : ℝ))) * (dsle_dbtsr wing_area wing_slat_chord_ratio
    wing_taper_ratio wing_slat_span_ratio)) * (dbtsr_dwingspan wing_thickness_to_chord_root
    wing_span fuselage_avg_diameter wing_center_chord))

/-- Partial of `wing_high_lift_mass` with respect to `wing_thickness_to_chord_root` as set by `HighLiftMass`, aviary/subsystems/mass/gasp_based/fixed.py:2134 -/
noncomputable def J_wing_high_lift_mass__wing_thickness_to_chord_root (wing_num_flap_segments sea_level_density wing_high_lift_mass_coefficient wing_area wing_slat_chord_ratio wing_flap_chord_ratio wing_taper_ratio wing_slat_span_ratio design_wing_loading wing_thickness_to_chord_root wing_span fuselage_avg_diameter wing_center_chord landing_lift_coefficient_max : ℝ) : ℝ :=
  ((((wing_high_lift_mass_coefficient * (((vflap_2 sea_level_density design_wing_loading
    landing_lift_coefficient_max) / 100) ^ 2)) * (dsflap_dbtsr wing_area wing_flap_chord_ratio
    wing_taper_ratio wing_thickness_to_chord_root wing_span fuselage_avg_diameter
    wing_center_chord)) * (dbtsr_dtcrr wing_thickness_to_chord_root wing_span
    fuselage_avg_diameter wing_center_chord)) * (wing_num_flap_segments ^ ((1 / 2) : ℝ))) +
    ((((4633 / 1250) * ((sle_2 wing_area wing_slat_chord_ratio wing_taper_ratio
    wing_slat_span_ratio wing_thickness_to_chord_root wing_span fuselage_avg_diameter
    wing_center_chord) ^ ((13 / 100) : ℝ))) * (dsle_dbtsr wing_area wing_slat_chord_ratio
    wing_taper_ratio wing_slat_span_ratio)) * (dbtsr_dtcrr wing_thickness_to_chord_root
    wing_span fuselage_avg_diameter wing_center_chord))

/-- Partial of `wing_high_lift_mass` with respect to `wing_center_chord` as set by `HighLiftMass`, aviary/subsystems/mass/gasp_based/fixed.py:2139 -/
noncomputable def J_wing_high_lift_mass__wing_center_chord (wing_num_flap_segments sea_level_density wing_high_lift_mass_coefficient wing_area wing_slat_chord_ratio wing_flap_chord_ratio wing_taper_ratio wing_slat_span_ratio design_wing_loading wing_thickness_to_chord_root wing_span fuselage_avg_diameter wing_center_chord landing_lift_coefficient_max : ℝ) : ℝ :=
  ((((wing_high_lift_mass_coefficient * (((vflap_2 sea_level_density design_wing_loading
    landing_lift_coefficient_max) / 100) ^ 2)) * (dsflap_dbtsr wing_area wing_flap_chord_ratio
    wing_taper_ratio wing_thickness_to_chord_root wing_span fuselage_avg_diameter
    wing_center_chord)) * (dbtsr_dcc wing_thickness_to_chord_root wing_span
    fuselage_avg_diameter wing_center_chord)) * (wing_num_flap_segments ^ ((1 / 2) : ℝ))) +
    ((((4633 / 1250) * ((sle_2 wing_area wing_slat_chord_ratio wing_taper_ratio
    wing_slat_span_ratio wing_thickness_to_chord_root wing_span fuselage_avg_diameter
    wing_center_chord) ^ ((13 / 100) : ℝ))) * (dsle_dbtsr wing_area wing_slat_chord_ratio
    wing_taper_ratio wing_slat_span_ratio)) * (dbtsr_dcc wing_thickness_to_chord_root wing_span
    fuselage_avg_diameter wing_center_chord))

/-- Partial of `wing_high_lift_mass` with respect to `fuselage_avg_diameter` as set by `HighLiftMass`, aviary/subsystems/mass/gasp_based/fixed.py:2143 -/
noncomputable def J_wing_high_lift_mass__fuselage_avg_diameter (wing_num_flap_segments sea_level_density wing_high_lift_mass_coefficient wing_area wing_slat_chord_ratio wing_flap_chord_ratio wing_taper_ratio wing_slat_span_ratio design_wing_loading wing_thickness_to_chord_root wing_span fuselage_avg_diameter wing_center_chord landing_lift_coefficient_max : ℝ) : ℝ :=
  ((((wing_high_lift_mass_coefficient * (((vflap_2 sea_level_density design_wing_loading
    landing_lift_coefficient_max) / 100) ^ 2)) * (dsflap_dbtsr wing_area wing_flap_chord_ratio
    wing_taper_ratio wing_thickness_to_chord_root wing_span fuselage_avg_diameter
    wing_center_chord)) * (dbtsr_dcw wing_thickness_to_chord_root wing_span
    fuselage_avg_diameter wing_center_chord)) * (wing_num_flap_segments ^ ((1 / 2) : ℝ))) +
    ((((4633 / 1250) * ((sle_2 wing_area wing_slat_chord_ratio wing_taper_ratio
    wing_slat_span_ratio wing_thickness_to_chord_root wing_span fuselage_avg_diameter
    wing_center_chord) ^ ((13 / 100) : ℝ))) * (dsle_dbtsr wing_area wing_slat_chord_ratio
    wing_taper_ratio wing_slat_span_ratio)) * (dbtsr_dcw wing_thickness_to_chord_root wing_span
    fuselage_avg_diameter wing_center_chord))

theorem d_slat_mass__wing_area (wing_area wing_slat_chord_ratio wing_taper_ratio
    wing_slat_span_ratio wing_thickness_to_chord_root wing_span fuselage_avg_diameter
    wing_center_chord : ℝ) (h0 : 0 < wing_taper_ratio) (h1 : 0 < wing_thickness_to_chord_root) (h2
    : 0 < wing_center_chord) (h3 : 0 < fuselage_avg_diameter - (wing_thickness_to_chord_root *
    wing_center_chord)) (h4 : 0 < wing_span) (h5 : 0 < wing_slat_chord_ratio) (h6 : 0 < wing_area)
    (h7 : 0 < wing_slat_span_ratio) (h8 : 0 < 2 - ((1 - wing_taper_ratio) * ((99 / 100) + (((2 *
    (sqrt ((wing_thickness_to_chord_root * wing_center_chord) * (fuselage_avg_diameter -
    (wing_thickness_to_chord_root * wing_center_chord))))) + (2 / 5)) / wing_span)))) (h9 : 0 < 2
    - ((1 - wing_taper_ratio) * ((99 / 100) + (((2 * (sqrt ((wing_thickness_to_chord_root *
    wing_center_chord) * (fuselage_avg_diameter - (wing_thickness_to_chord_root *
    wing_center_chord))))) + (2 / 5)) / wing_span)))) :
    HasDerivAt (fun t => out_slat_mass t wing_slat_chord_ratio wing_taper_ratio wing_slat_span_ratio wing_thickness_to_chord_root wing_span fuselage_avg_diameter wing_center_chord) (J_slat_mass__wing_area wing_area wing_slat_chord_ratio wing_taper_ratio wing_slat_span_ratio wing_thickness_to_chord_root wing_span fuselage_avg_diameter wing_center_chord) wing_area := by
  have hf8 : 0 < 2 - ((1 - wing_taper_ratio) * ((99 / 100) + (body_to_span_ratio wing_thickness_to_chord_root wing_span fuselage_avg_diameter wing_center_chord))) := by simp only [dsle_dwa, sle_2, body_to_span_ratio_2, u1, wled, sle, body_to_span_ratio]; exact h8
  have hf9 : 0 < 2 - ((1 - wing_taper_ratio) * ((99 / 100) + (body_to_span_ratio_2 wing_thickness_to_chord_root wing_span fuselage_avg_diameter wing_center_chord))) := by simp only [dsle_dwa, sle_2, body_to_span_ratio_2, u1, wled, sle, body_to_span_ratio]; exact h9
  have hp0 : 0 < sle wing_area wing_slat_chord_ratio wing_taper_ratio wing_slat_span_ratio wing_thickness_to_chord_root wing_span fuselage_avg_diameter wing_center_chord := by simp only [dsle_dwa, sle_2, body_to_span_ratio_2, u1, wled, sle, body_to_span_ratio]; comp_side
  have hp1 : 0 < sle_2 wing_area wing_slat_chord_ratio wing_taper_ratio wing_slat_span_ratio wing_thickness_to_chord_root wing_span fuselage_avg_diameter wing_center_chord := by simp only [dsle_dwa, sle_2, body_to_span_ratio_2, u1, wled, sle, body_to_span_ratio]; comp_side
  have hp2 : 0 < u1 wing_thickness_to_chord_root fuselage_avg_diameter wing_center_chord := by simp only [dsle_dwa, sle_2, body_to_span_ratio_2, u1, wled, sle, body_to_span_ratio]; comp_side
  have e0 : ∀ x : ℝ, 0 < x → x ^ ((113 / 100) : ℝ) = x ^ ((13 / 100) : ℝ) * x ^ 1 := fun x hx => rpow_up hx 1 (by norm_num)
  obtain ⟨D_sle, hD_sle, k_sle⟩ : ∃ D : ℝ, D = ((wing_slat_chord_ratio / (1 + wing_taper_ratio)) * wing_slat_span_ratio) * (2 - ((1 - wing_taper_ratio) * ((99 / 100) + (body_to_span_ratio wing_thickness_to_chord_root wing_span fuselage_avg_diameter wing_center_chord)))) ∧
      HasDerivAt (fun t => sle t wing_slat_chord_ratio wing_taper_ratio wing_slat_span_ratio wing_thickness_to_chord_root wing_span fuselage_avg_diameter wing_center_chord) D wing_area := by
    refine ⟨_, rfl, ?_⟩
    simp only [sle]
    apply hasDerivAt_of_eq; on_goal 1 => (repeat' comp_step)
    all_goals try first | comp_side | (apply HasDerivAt.continuousAt; (repeat' comp_step); all_goals comp_side)
    all_goals try simp (disch := first | assumption | positivity) only [e0, div_mul_eq_div_div, div_half, inv_half]
    all_goals try simp only [mul_zero, zero_mul, add_zero, zero_add, sub_zero, zero_sub, mul_one, one_mul, sub_self]
    all_goals try push_cast
    all_goals comp_eq
  obtain ⟨D_wled, hD_wled, k_wled⟩ : ∃ D : ℝ, D = (82 / 25) * (((113 / 100) * ((sle wing_area wing_slat_chord_ratio wing_taper_ratio wing_slat_span_ratio wing_thickness_to_chord_root wing_span fuselage_avg_diameter wing_center_chord) ^ ((13 / 100) : ℝ))) * D_sle) ∧
      HasDerivAt (fun t => wled t wing_slat_chord_ratio wing_taper_ratio wing_slat_span_ratio wing_thickness_to_chord_root wing_span fuselage_avg_diameter wing_center_chord) D wing_area := by
    refine ⟨_, rfl, ?_⟩
    simp only [wled]
    apply hasDerivAt_of_eq; on_goal 1 => (repeat' comp_step)
    all_goals try first | comp_side | (apply HasDerivAt.continuousAt; (repeat' comp_step); all_goals comp_side)
    all_goals try simp (disch := first | assumption | positivity) only [e0, div_mul_eq_div_div, div_half, inv_half]
    all_goals try simp only [mul_zero, zero_mul, add_zero, zero_add, sub_zero, zero_sub, mul_one, one_mul, sub_self]
    all_goals try push_cast
    all_goals comp_eq
  have al_sle_2 : sle_2 wing_area wing_slat_chord_ratio wing_taper_ratio wing_slat_span_ratio wing_thickness_to_chord_root wing_span fuselage_avg_diameter wing_center_chord = sle wing_area wing_slat_chord_ratio wing_taper_ratio wing_slat_span_ratio wing_thickness_to_chord_root wing_span fuselage_avg_diameter wing_center_chord := rfl
  have al_body_to_span_ratio_2 : body_to_span_ratio_2 wing_thickness_to_chord_root wing_span fuselage_avg_diameter wing_center_chord = body_to_span_ratio wing_thickness_to_chord_root wing_span fuselage_avg_diameter wing_center_chord := rfl
  try simp only [out_slat_mass, J_slat_mass__wing_area, dsle_dwa, u1, al_sle_2, al_body_to_span_ratio_2]
  all_goals (apply hasDerivAt_of_eq; on_goal 1 => (repeat' comp_step))
  all_goals try first | comp_side | (apply HasDerivAt.continuousAt; (repeat' comp_step); all_goals comp_side)
  all_goals try simp only [hD_sle, hD_wled]
  all_goals try simp (disch := first | assumption | positivity) only [e0, div_mul_eq_div_div, div_half, inv_half]
  all_goals try simp only [mul_zero, zero_mul, add_zero, zero_add, sub_zero, zero_sub, mul_one, one_mul, sub_self]
  all_goals try push_cast
  all_goals comp_eq

theorem d_slat_mass__wing_slat_chord_ratio (wing_area wing_slat_chord_ratio wing_taper_ratio
    wing_slat_span_ratio wing_thickness_to_chord_root wing_span fuselage_avg_diameter
    wing_center_chord : ℝ) (h0 : 0 < wing_taper_ratio) (h1 : 0 < wing_thickness_to_chord_root) (h2
    : 0 < wing_center_chord) (h3 : 0 < fuselage_avg_diameter - (wing_thickness_to_chord_root *
    wing_center_chord)) (h4 : 0 < wing_span) (h5 : 0 < wing_slat_chord_ratio) (h6 : 0 < wing_area)
    (h7 : 0 < wing_slat_span_ratio) (h8 : 0 < 2 - ((1 - wing_taper_ratio) * ((99 / 100) + (((2 *
    (sqrt ((wing_thickness_to_chord_root * wing_center_chord) * (fuselage_avg_diameter -
    (wing_thickness_to_chord_root * wing_center_chord))))) + (2 / 5)) / wing_span)))) (h9 : 0 < 2
    - ((1 - wing_taper_ratio) * ((99 / 100) + (((2 * (sqrt ((wing_thickness_to_chord_root *
    wing_center_chord) * (fuselage_avg_diameter - (wing_thickness_to_chord_root *
    wing_center_chord))))) + (2 / 5)) / wing_span)))) :
    HasDerivAt (fun t => out_slat_mass wing_area t wing_taper_ratio wing_slat_span_ratio wing_thickness_to_chord_root wing_span fuselage_avg_diameter wing_center_chord) (J_slat_mass__wing_slat_chord_ratio wing_area wing_slat_chord_ratio wing_taper_ratio wing_slat_span_ratio wing_thickness_to_chord_root wing_span fuselage_avg_diameter wing_center_chord) wing_slat_chord_ratio := by
  have hf8 : 0 < 2 - ((1 - wing_taper_ratio) * ((99 / 100) + (body_to_span_ratio wing_thickness_to_chord_root wing_span fuselage_avg_diameter wing_center_chord))) := by simp only [dsle_dscr, sle_2, body_to_span_ratio_2, u1, wled, sle, body_to_span_ratio]; exact h8
  have hf9 : 0 < 2 - ((1 - wing_taper_ratio) * ((99 / 100) + (body_to_span_ratio_2 wing_thickness_to_chord_root wing_span fuselage_avg_diameter wing_center_chord))) := by simp only [dsle_dscr, sle_2, body_to_span_ratio_2, u1, wled, sle, body_to_span_ratio]; exact h9
  have hp0 : 0 < sle wing_area wing_slat_chord_ratio wing_taper_ratio wing_slat_span_ratio wing_thickness_to_chord_root wing_span fuselage_avg_diameter wing_center_chord := by simp only [dsle_dscr, sle_2, body_to_span_ratio_2, u1, wled, sle, body_to_span_ratio]; comp_side
  have hp1 : 0 < sle_2 wing_area wing_slat_chord_ratio wing_taper_ratio wing_slat_span_ratio wing_thickness_to_chord_root wing_span fuselage_avg_diameter wing_center_chord := by simp only [dsle_dscr, sle_2, body_to_span_ratio_2, u1, wled, sle, body_to_span_ratio]; comp_side
  have hp2 : 0 < u1 wing_thickness_to_chord_root fuselage_avg_diameter wing_center_chord := by simp only [dsle_dscr, sle_2, body_to_span_ratio_2, u1, wled, sle, body_to_span_ratio]; comp_side
  have e0 : ∀ x : ℝ, 0 < x → x ^ ((113 / 100) : ℝ) = x ^ ((13 / 100) : ℝ) * x ^ 1 := fun x hx => rpow_up hx 1 (by norm_num)
  obtain ⟨D_sle, hD_sle, k_sle⟩ : ∃ D : ℝ, D = ((wing_area / (1 + wing_taper_ratio)) * wing_slat_span_ratio) * (2 - ((1 - wing_taper_ratio) * ((99 / 100) + (body_to_span_ratio wing_thickness_to_chord_root wing_span fuselage_avg_diameter wing_center_chord)))) ∧
      HasDerivAt (fun t => sle wing_area t wing_taper_ratio wing_slat_span_ratio wing_thickness_to_chord_root wing_span fuselage_avg_diameter wing_center_chord) D wing_slat_chord_ratio := by
    refine ⟨_, rfl, ?_⟩
    simp only [sle]
    apply hasDerivAt_of_eq; on_goal 1 => (repeat' comp_step)
    all_goals try first | comp_side | (apply HasDerivAt.continuousAt; (repeat' comp_step); all_goals comp_side)
    all_goals try simp (disch := first | assumption | positivity) only [e0, div_mul_eq_div_div, div_half, inv_half]
    all_goals try simp only [mul_zero, zero_mul, add_zero, zero_add, sub_zero, zero_sub, mul_one, one_mul, sub_self]
    all_goals try push_cast
    all_goals comp_eq
  obtain ⟨D_wled, hD_wled, k_wled⟩ : ∃ D : ℝ, D = (82 / 25) * (((113 / 100) * ((sle wing_area wing_slat_chord_ratio wing_taper_ratio wing_slat_span_ratio wing_thickness_to_chord_root wing_span fuselage_avg_diameter wing_center_chord) ^ ((13 / 100) : ℝ))) * D_sle) ∧
      HasDerivAt (fun t => wled wing_area t wing_taper_ratio wing_slat_span_ratio wing_thickness_to_chord_root wing_span fuselage_avg_diameter wing_center_chord) D wing_slat_chord_ratio := by
    refine ⟨_, rfl, ?_⟩
    simp only [wled]
    apply hasDerivAt_of_eq; on_goal 1 => (repeat' comp_step)
    all_goals try first | comp_side | (apply HasDerivAt.continuousAt; (repeat' comp_step); all_goals comp_side)
    all_goals try simp (disch := first | assumption | positivity) only [e0, div_mul_eq_div_div, div_half, inv_half]
    all_goals try simp only [mul_zero, zero_mul, add_zero, zero_add, sub_zero, zero_sub, mul_one, one_mul, sub_self]
    all_goals try push_cast
    all_goals comp_eq
  have al_sle_2 : sle_2 wing_area wing_slat_chord_ratio wing_taper_ratio wing_slat_span_ratio wing_thickness_to_chord_root wing_span fuselage_avg_diameter wing_center_chord = sle wing_area wing_slat_chord_ratio wing_taper_ratio wing_slat_span_ratio wing_thickness_to_chord_root wing_span fuselage_avg_diameter wing_center_chord := rfl
  have al_body_to_span_ratio_2 : body_to_span_ratio_2 wing_thickness_to_chord_root wing_span fuselage_avg_diameter wing_center_chord = body_to_span_ratio wing_thickness_to_chord_root wing_span fuselage_avg_diameter wing_center_chord := rfl
  try simp only [out_slat_mass, J_slat_mass__wing_slat_chord_ratio, dsle_dscr, u1, al_sle_2, al_body_to_span_ratio_2]
  all_goals (apply hasDerivAt_of_eq; on_goal 1 => (repeat' comp_step))
  all_goals try first | comp_side | (apply HasDerivAt.continuousAt; (repeat' comp_step); all_goals comp_side)
  all_goals try simp only [hD_sle, hD_wled]
  all_goals try simp (disch := first | assumption | positivity) only [e0, div_mul_eq_div_div, div_half, inv_half]
  all_goals try simp only [mul_zero, zero_mul, add_zero, zero_add, sub_zero, zero_sub, mul_one, one_mul, sub_self]
  all_goals try push_cast
  all_goals comp_eq

theorem d_slat_mass__wing_taper_ratio (wing_area wing_slat_chord_ratio wing_taper_ratio
    wing_slat_span_ratio wing_thickness_to_chord_root wing_span fuselage_avg_diameter
    wing_center_chord : ℝ) (h0 : 0 < wing_taper_ratio) (h1 : 0 < wing_thickness_to_chord_root) (h2
    : 0 < wing_center_chord) (h3 : 0 < fuselage_avg_diameter - (wing_thickness_to_chord_root *
    wing_center_chord)) (h4 : 0 < wing_span) (h5 : 0 < wing_slat_chord_ratio) (h6 : 0 < wing_area)
    (h7 : 0 < wing_slat_span_ratio) (h8 : 0 < 2 - ((1 - wing_taper_ratio) * ((99 / 100) + (((2 *
    (sqrt ((wing_thickness_to_chord_root * wing_center_chord) * (fuselage_avg_diameter -
    (wing_thickness_to_chord_root * wing_center_chord))))) + (2 / 5)) / wing_span)))) (h9 : 0 < 2
    - ((1 - wing_taper_ratio) * ((99 / 100) + (((2 * (sqrt ((wing_thickness_to_chord_root *
    wing_center_chord) * (fuselage_avg_diameter - (wing_thickness_to_chord_root *
    wing_center_chord))))) + (2 / 5)) / wing_span)))) :
    HasDerivAt (fun t => out_slat_mass wing_area wing_slat_chord_ratio t wing_slat_span_ratio wing_thickness_to_chord_root wing_span fuselage_avg_diameter wing_center_chord) (J_slat_mass__wing_taper_ratio wing_area wing_slat_chord_ratio wing_taper_ratio wing_slat_span_ratio wing_thickness_to_chord_root wing_span fuselage_avg_diameter wing_center_chord) wing_taper_ratio := by
  have hf8 : 0 < 2 - ((1 - wing_taper_ratio) * ((99 / 100) + (body_to_span_ratio wing_thickness_to_chord_root wing_span fuselage_avg_diameter wing_center_chord))) := by simp only [dsle_dtr, sle_2, body_to_span_ratio_2, u1, wled, sle, body_to_span_ratio]; exact h8
  have hf9 : 0 < 2 - ((1 - wing_taper_ratio) * ((99 / 100) + (body_to_span_ratio_2 wing_thickness_to_chord_root wing_span fuselage_avg_diameter wing_center_chord))) := by simp only [dsle_dtr, sle_2, body_to_span_ratio_2, u1, wled, sle, body_to_span_ratio]; exact h9
  have hp0 : 0 < sle wing_area wing_slat_chord_ratio wing_taper_ratio wing_slat_span_ratio wing_thickness_to_chord_root wing_span fuselage_avg_diameter wing_center_chord := by simp only [dsle_dtr, sle_2, body_to_span_ratio_2, u1, wled, sle, body_to_span_ratio]; comp_side
  have hp1 : 0 < sle_2 wing_area wing_slat_chord_ratio wing_taper_ratio wing_slat_span_ratio wing_thickness_to_chord_root wing_span fuselage_avg_diameter wing_center_chord := by simp only [dsle_dtr, sle_2, body_to_span_ratio_2, u1, wled, sle, body_to_span_ratio]; comp_side
  have hp2 : 0 < u1 wing_thickness_to_chord_root fuselage_avg_diameter wing_center_chord := by simp only [dsle_dtr, sle_2, body_to_span_ratio_2, u1, wled, sle, body_to_span_ratio]; comp_side
  have e0 : ∀ x : ℝ, 0 < x → x ^ ((113 / 100) : ℝ) = x ^ ((13 / 100) : ℝ) * x ^ 1 := fun x hx => rpow_up hx 1 (by norm_num)
  obtain ⟨D_sle, hD_sle, k_sle⟩ : ∃ D : ℝ, D = (((-((wing_slat_chord_ratio * wing_area) / ((1 + wing_taper_ratio) ^ 2))) * wing_slat_span_ratio) * (2 - ((1 - wing_taper_ratio) * ((99 / 100) + (body_to_span_ratio wing_thickness_to_chord_root wing_span fuselage_avg_diameter wing_center_chord))))) + ((((wing_slat_chord_ratio * wing_area) / (1 + wing_taper_ratio)) * wing_slat_span_ratio) * (-((-1) * ((99 / 100) + (body_to_span_ratio wing_thickness_to_chord_root wing_span fuselage_avg_diameter wing_center_chord))))) ∧
      HasDerivAt (fun t => sle wing_area wing_slat_chord_ratio t wing_slat_span_ratio wing_thickness_to_chord_root wing_span fuselage_avg_diameter wing_center_chord) D wing_taper_ratio := by
    refine ⟨_, rfl, ?_⟩
    simp only [sle]
    apply hasDerivAt_of_eq; on_goal 1 => (repeat' comp_step)
    all_goals try first | comp_side | (apply HasDerivAt.continuousAt; (repeat' comp_step); all_goals comp_side)
    all_goals try simp (disch := first | assumption | positivity) only [e0, div_mul_eq_div_div, div_half, inv_half]
    all_goals try simp only [mul_zero, zero_mul, add_zero, zero_add, sub_zero, zero_sub, mul_one, one_mul, sub_self]
    all_goals try push_cast
    all_goals comp_eq
  obtain ⟨D_wled, hD_wled, k_wled⟩ : ∃ D : ℝ, D = (82 / 25) * (((113 / 100) * ((sle wing_area wing_slat_chord_ratio wing_taper_ratio wing_slat_span_ratio wing_thickness_to_chord_root wing_span fuselage_avg_diameter wing_center_chord) ^ ((13 / 100) : ℝ))) * D_sle) ∧
      HasDerivAt (fun t => wled wing_area wing_slat_chord_ratio t wing_slat_span_ratio wing_thickness_to_chord_root wing_span fuselage_avg_diameter wing_center_chord) D wing_taper_ratio := by
    refine ⟨_, rfl, ?_⟩
    simp only [wled]
    apply hasDerivAt_of_eq; on_goal 1 => (repeat' comp_step)
    all_goals try first | comp_side | (apply HasDerivAt.continuousAt; (repeat' comp_step); all_goals comp_side)
    all_goals try simp (disch := first | assumption | positivity) only [e0, div_mul_eq_div_div, div_half, inv_half]
    all_goals try simp only [mul_zero, zero_mul, add_zero, zero_add, sub_zero, zero_sub, mul_one, one_mul, sub_self]
    all_goals try push_cast
    all_goals comp_eq
  have al_sle_2 : sle_2 wing_area wing_slat_chord_ratio wing_taper_ratio wing_slat_span_ratio wing_thickness_to_chord_root wing_span fuselage_avg_diameter wing_center_chord = sle wing_area wing_slat_chord_ratio wing_taper_ratio wing_slat_span_ratio wing_thickness_to_chord_root wing_span fuselage_avg_diameter wing_center_chord := rfl
  have al_body_to_span_ratio_2 : body_to_span_ratio_2 wing_thickness_to_chord_root wing_span fuselage_avg_diameter wing_center_chord = body_to_span_ratio wing_thickness_to_chord_root wing_span fuselage_avg_diameter wing_center_chord := rfl
  try simp only [out_slat_mass, J_slat_mass__wing_taper_ratio, dsle_dtr, u1, al_sle_2, al_body_to_span_ratio_2]
  all_goals (apply hasDerivAt_of_eq; on_goal 1 => (repeat' comp_step))
  all_goals try first | comp_side | (apply HasDerivAt.continuousAt; (repeat' comp_step); all_goals comp_side)
  all_goals try simp only [hD_sle, hD_wled]
  all_goals try simp (disch := first | assumption | positivity) only [e0, div_mul_eq_div_div, div_half, inv_half]
  all_goals try simp only [mul_zero, zero_mul, add_zero, zero_add, sub_zero, zero_sub, mul_one, one_mul, sub_self]
  all_goals try push_cast
  all_goals comp_eq

theorem d_slat_mass__wing_slat_span_ratio (wing_area wing_slat_chord_ratio wing_taper_ratio
    wing_slat_span_ratio wing_thickness_to_chord_root wing_span fuselage_avg_diameter
    wing_center_chord : ℝ) (h0 : 0 < wing_taper_ratio) (h1 : 0 < wing_thickness_to_chord_root) (h2
    : 0 < wing_center_chord) (h3 : 0 < fuselage_avg_diameter - (wing_thickness_to_chord_root *
    wing_center_chord)) (h4 : 0 < wing_span) (h5 : 0 < wing_slat_chord_ratio) (h6 : 0 < wing_area)
    (h7 : 0 < wing_slat_span_ratio) (h8 : 0 < 2 - ((1 - wing_taper_ratio) * ((99 / 100) + (((2 *
    (sqrt ((wing_thickness_to_chord_root * wing_center_chord) * (fuselage_avg_diameter -
    (wing_thickness_to_chord_root * wing_center_chord))))) + (2 / 5)) / wing_span)))) (h9 : 0 < 2
    - ((1 - wing_taper_ratio) * ((99 / 100) + (((2 * (sqrt ((wing_thickness_to_chord_root *
    wing_center_chord) * (fuselage_avg_diameter - (wing_thickness_to_chord_root *
    wing_center_chord))))) + (2 / 5)) / wing_span)))) :
    HasDerivAt (fun t => out_slat_mass wing_area wing_slat_chord_ratio wing_taper_ratio t wing_thickness_to_chord_root wing_span fuselage_avg_diameter wing_center_chord) (J_slat_mass__wing_slat_span_ratio wing_area wing_slat_chord_ratio wing_taper_ratio wing_slat_span_ratio wing_thickness_to_chord_root wing_span fuselage_avg_diameter wing_center_chord) wing_slat_span_ratio := by
  have hf8 : 0 < 2 - ((1 - wing_taper_ratio) * ((99 / 100) + (body_to_span_ratio wing_thickness_to_chord_root wing_span fuselage_avg_diameter wing_center_chord))) := by simp only [dsle_dssr, sle_2, body_to_span_ratio_2, u1, wled, sle, body_to_span_ratio]; exact h8
  have hf9 : 0 < 2 - ((1 - wing_taper_ratio) * ((99 / 100) + (body_to_span_ratio_2 wing_thickness_to_chord_root wing_span fuselage_avg_diameter wing_center_chord))) := by simp only [dsle_dssr, sle_2, body_to_span_ratio_2, u1, wled, sle, body_to_span_ratio]; exact h9
  have hp0 : 0 < sle wing_area wing_slat_chord_ratio wing_taper_ratio wing_slat_span_ratio wing_thickness_to_chord_root wing_span fuselage_avg_diameter wing_center_chord := by simp only [dsle_dssr, sle_2, body_to_span_ratio_2, u1, wled, sle, body_to_span_ratio]; comp_side
  have hp1 : 0 < sle_2 wing_area wing_slat_chord_ratio wing_taper_ratio wing_slat_span_ratio wing_thickness_to_chord_root wing_span fuselage_avg_diameter wing_center_chord := by simp only [dsle_dssr, sle_2, body_to_span_ratio_2, u1, wled, sle, body_to_span_ratio]; comp_side
  have hp2 : 0 < u1 wing_thickness_to_chord_root fuselage_avg_diameter wing_center_chord := by simp only [dsle_dssr, sle_2, body_to_span_ratio_2, u1, wled, sle, body_to_span_ratio]; comp_side
  have e0 : ∀ x : ℝ, 0 < x → x ^ ((113 / 100) : ℝ) = x ^ ((13 / 100) : ℝ) * x ^ 1 := fun x hx => rpow_up hx 1 (by norm_num)
  obtain ⟨D_sle, hD_sle, k_sle⟩ : ∃ D : ℝ, D = ((wing_slat_chord_ratio * wing_area) / (1 + wing_taper_ratio)) * (2 - ((1 - wing_taper_ratio) * ((99 / 100) + (body_to_span_ratio wing_thickness_to_chord_root wing_span fuselage_avg_diameter wing_center_chord)))) ∧
      HasDerivAt (fun t => sle wing_area wing_slat_chord_ratio wing_taper_ratio t wing_thickness_to_chord_root wing_span fuselage_avg_diameter wing_center_chord) D wing_slat_span_ratio := by
    refine ⟨_, rfl, ?_⟩
    simp only [sle]
    apply hasDerivAt_of_eq; on_goal 1 => (repeat' comp_step)
    all_goals try first | comp_side | (apply HasDerivAt.continuousAt; (repeat' comp_step); all_goals comp_side)
    all_goals try simp (disch := first | assumption | positivity) only [e0, div_mul_eq_div_div, div_half, inv_half]
    all_goals try simp only [mul_zero, zero_mul, add_zero, zero_add, sub_zero, zero_sub, mul_one, one_mul, sub_self]
    all_goals try push_cast
    all_goals comp_eq
  obtain ⟨D_wled, hD_wled, k_wled⟩ : ∃ D : ℝ, D = (82 / 25) * (((113 / 100) * ((sle wing_area wing_slat_chord_ratio wing_taper_ratio wing_slat_span_ratio wing_thickness_to_chord_root wing_span fuselage_avg_diameter wing_center_chord) ^ ((13 / 100) : ℝ))) * D_sle) ∧
      HasDerivAt (fun t => wled wing_area wing_slat_chord_ratio wing_taper_ratio t wing_thickness_to_chord_root wing_span fuselage_avg_diameter wing_center_chord) D wing_slat_span_ratio := by
    refine ⟨_, rfl, ?_⟩
    simp only [wled]
    apply hasDerivAt_of_eq; on_goal 1 => (repeat' comp_step)
    all_goals try first | comp_side | (apply HasDerivAt.continuousAt; (repeat' comp_step); all_goals comp_side)
    all_goals try simp (disch := first | assumption | positivity) only [e0, div_mul_eq_div_div, div_half, inv_half]
    all_goals try simp only [mul_zero, zero_mul, add_zero, zero_add, sub_zero, zero_sub, mul_one, one_mul, sub_self]
    all_goals try push_cast
    all_goals comp_eq
  have al_sle_2 : sle_2 wing_area wing_slat_chord_ratio wing_taper_ratio wing_slat_span_ratio wing_thickness_to_chord_root wing_span fuselage_avg_diameter wing_center_chord = sle wing_area wing_slat_chord_ratio wing_taper_ratio wing_slat_span_ratio wing_thickness_to_chord_root wing_span fuselage_avg_diameter wing_center_chord := rfl
  have al_body_to_span_ratio_2 : body_to_span_ratio_2 wing_thickness_to_chord_root wing_span fuselage_avg_diameter wing_center_chord = body_to_span_ratio wing_thickness_to_chord_root wing_span fuselage_avg_diameter wing_center_chord := rfl
  try simp only [out_slat_mass, J_slat_mass__wing_slat_span_ratio, dsle_dssr, u1, al_sle_2, al_body_to_span_ratio_2]
  all_goals (apply hasDerivAt_of_eq; on_goal 1 => (repeat' comp_step))
  all_goals try first | comp_side | (apply HasDerivAt.continuousAt; (repeat' comp_step); all_goals comp_side)
  all_goals try simp only [hD_sle, hD_wled]
  all_goals try simp (disch := first | assumption | positivity) only [e0, div_mul_eq_div_div, div_half, inv_half]
  all_goals try simp only [mul_zero, zero_mul, add_zero, zero_add, sub_zero, zero_sub, mul_one, one_mul, sub_self]
  all_goals try push_cast
  all_goals comp_eq

theorem d_slat_mass__wing_span (wing_area wing_slat_chord_ratio wing_taper_ratio
    wing_slat_span_ratio wing_thickness_to_chord_root wing_span fuselage_avg_diameter
    wing_center_chord : ℝ) (h0 : 0 < wing_taper_ratio) (h1 : 0 < wing_thickness_to_chord_root) (h2
    : 0 < wing_center_chord) (h3 : 0 < fuselage_avg_diameter - (wing_thickness_to_chord_root *
    wing_center_chord)) (h4 : 0 < wing_span) (h5 : 0 < wing_slat_chord_ratio) (h6 : 0 < wing_area)
    (h7 : 0 < wing_slat_span_ratio) (h8 : 0 < 2 - ((1 - wing_taper_ratio) * ((99 / 100) + (((2 *
    (sqrt ((wing_thickness_to_chord_root * wing_center_chord) * (fuselage_avg_diameter -
    (wing_thickness_to_chord_root * wing_center_chord))))) + (2 / 5)) / wing_span)))) (h9 : 0 < 2
    - ((1 - wing_taper_ratio) * ((99 / 100) + (((2 * (sqrt ((wing_thickness_to_chord_root *
    wing_center_chord) * (fuselage_avg_diameter - (wing_thickness_to_chord_root *
    wing_center_chord))))) + (2 / 5)) / wing_span)))) :
    HasDerivAt (fun t => out_slat_mass wing_area wing_slat_chord_ratio wing_taper_ratio wing_slat_span_ratio wing_thickness_to_chord_root t fuselage_avg_diameter wing_center_chord) (J_slat_mass__wing_span wing_area wing_slat_chord_ratio wing_taper_ratio wing_slat_span_ratio wing_thickness_to_chord_root wing_span fuselage_avg_diameter wing_center_chord) wing_span := by
  have hf8 : 0 < 2 - ((1 - wing_taper_ratio) * ((99 / 100) + (body_to_span_ratio wing_thickness_to_chord_root wing_span fuselage_avg_diameter wing_center_chord))) := by simp only [dbtsr_dwingspan, dsle_dbtsr, sle_2, body_to_span_ratio_2, u1, wled, sle, body_to_span_ratio]; exact h8
  have hf9 : 0 < 2 - ((1 - wing_taper_ratio) * ((99 / 100) + (body_to_span_ratio_2 wing_thickness_to_chord_root wing_span fuselage_avg_diameter wing_center_chord))) := by simp only [dbtsr_dwingspan, dsle_dbtsr, sle_2, body_to_span_ratio_2, u1, wled, sle, body_to_span_ratio]; exact h9
  have hp0 : 0 < sle wing_area wing_slat_chord_ratio wing_taper_ratio wing_slat_span_ratio wing_thickness_to_chord_root wing_span fuselage_avg_diameter wing_center_chord := by simp only [dbtsr_dwingspan, dsle_dbtsr, sle_2, body_to_span_ratio_2, u1, wled, sle, body_to_span_ratio]; comp_side
  have hp1 : 0 < sle_2 wing_area wing_slat_chord_ratio wing_taper_ratio wing_slat_span_ratio wing_thickness_to_chord_root wing_span fuselage_avg_diameter wing_center_chord := by simp only [dbtsr_dwingspan, dsle_dbtsr, sle_2, body_to_span_ratio_2, u1, wled, sle, body_to_span_ratio]; comp_side
  have hp2 : 0 < u1 wing_thickness_to_chord_root fuselage_avg_diameter wing_center_chord := by simp only [dbtsr_dwingspan, dsle_dbtsr, sle_2, body_to_span_ratio_2, u1, wled, sle, body_to_span_ratio]; comp_side
  have e0 : ∀ x : ℝ, 0 < x → x ^ ((113 / 100) : ℝ) = x ^ ((13 / 100) : ℝ) * x ^ 1 := fun x hx => rpow_up hx 1 (by norm_num)
  obtain ⟨D_body_to_span_ratio, hD_body_to_span_ratio, k_body_to_span_ratio⟩ : ∃ D : ℝ, D = -(((2 * (sqrt ((wing_thickness_to_chord_root * wing_center_chord) * (fuselage_avg_diameter - (wing_thickness_to_chord_root * wing_center_chord))))) + (2 / 5)) / (wing_span ^ 2)) ∧
      HasDerivAt (fun t => body_to_span_ratio wing_thickness_to_chord_root t fuselage_avg_diameter wing_center_chord) D wing_span := by
    refine ⟨_, rfl, ?_⟩
    simp only [body_to_span_ratio, sqrt_eq_rpow]
    apply hasDerivAt_of_eq; on_goal 1 => (repeat' comp_step)
    all_goals try first | comp_side | (apply HasDerivAt.continuousAt; (repeat' comp_step); all_goals comp_side)
    all_goals try simp (disch := first | assumption | positivity) only [e0, div_mul_eq_div_div, div_half, inv_half]
    all_goals try simp only [mul_zero, zero_mul, add_zero, zero_add, sub_zero, zero_sub, mul_one, one_mul, sub_self]
    all_goals try push_cast
    all_goals comp_eq
  obtain ⟨D_sle, hD_sle, k_sle⟩ : ∃ D : ℝ, D = (((wing_slat_chord_ratio * wing_area) / (1 + wing_taper_ratio)) * wing_slat_span_ratio) * (-((1 - wing_taper_ratio) * D_body_to_span_ratio)) ∧
      HasDerivAt (fun t => sle wing_area wing_slat_chord_ratio wing_taper_ratio wing_slat_span_ratio wing_thickness_to_chord_root t fuselage_avg_diameter wing_center_chord) D wing_span := by
    refine ⟨_, rfl, ?_⟩
    simp only [sle]
    apply hasDerivAt_of_eq; on_goal 1 => (repeat' comp_step)
    all_goals try first | comp_side | (apply HasDerivAt.continuousAt; (repeat' comp_step); all_goals comp_side)
    all_goals try simp (disch := first | assumption | positivity) only [e0, div_mul_eq_div_div, div_half, inv_half]
    all_goals try simp only [mul_zero, zero_mul, add_zero, zero_add, sub_zero, zero_sub, mul_one, one_mul, sub_self]
    all_goals try push_cast
    all_goals comp_eq
  obtain ⟨D_wled, hD_wled, k_wled⟩ : ∃ D : ℝ, D = (82 / 25) * (((113 / 100) * ((sle wing_area wing_slat_chord_ratio wing_taper_ratio wing_slat_span_ratio wing_thickness_to_chord_root wing_span fuselage_avg_diameter wing_center_chord) ^ ((13 / 100) : ℝ))) * D_sle) ∧
      HasDerivAt (fun t => wled wing_area wing_slat_chord_ratio wing_taper_ratio wing_slat_span_ratio wing_thickness_to_chord_root t fuselage_avg_diameter wing_center_chord) D wing_span := by
    refine ⟨_, rfl, ?_⟩
    simp only [wled]
    apply hasDerivAt_of_eq; on_goal 1 => (repeat' comp_step)
    all_goals try first | comp_side | (apply HasDerivAt.continuousAt; (repeat' comp_step); all_goals comp_side)
    all_goals try simp (disch := first | assumption | positivity) only [e0, div_mul_eq_div_div, div_half, inv_half]
    all_goals try simp only [mul_zero, zero_mul, add_zero, zero_add, sub_zero, zero_sub, mul_one, one_mul, sub_self]
    all_goals try push_cast
    all_goals comp_eq
  have al_sle_2 : sle_2 wing_area wing_slat_chord_ratio wing_taper_ratio wing_slat_span_ratio wing_thickness_to_chord_root wing_span fuselage_avg_diameter wing_center_chord = sle wing_area wing_slat_chord_ratio wing_taper_ratio wing_slat_span_ratio wing_thickness_to_chord_root wing_span fuselage_avg_diameter wing_center_chord := rfl
  have al_body_to_span_ratio_2 : body_to_span_ratio_2 wing_thickness_to_chord_root wing_span fuselage_avg_diameter wing_center_chord = body_to_span_ratio wing_thickness_to_chord_root wing_span fuselage_avg_diameter wing_center_chord := rfl
  try simp only [out_slat_mass, J_slat_mass__wing_span, dbtsr_dwingspan, dsle_dbtsr, u1, al_sle_2, al_body_to_span_ratio_2]
  all_goals (apply hasDerivAt_of_eq; on_goal 1 => (repeat' comp_step))
  all_goals try first | comp_side | (apply HasDerivAt.continuousAt; (repeat' comp_step); all_goals comp_side)
  all_goals try simp only [hD_body_to_span_ratio, hD_sle, hD_wled]
  all_goals try simp only [dbtsr_dwingspan, dsle_dbtsr, sle_2, body_to_span_ratio_2, u1, wled, sle, body_to_span_ratio]
  all_goals try simp (disch := first | assumption | positivity) only [e0, div_mul_eq_div_div, div_half, inv_half]
  all_goals try simp only [mul_zero, zero_mul, add_zero, zero_add, sub_zero, zero_sub, mul_one, one_mul, sub_self]
  all_goals try push_cast
  all_goals comp_eq

theorem d_flap_mass__wing_high_lift_mass_coefficient (wing_num_flap_segments sea_level_density
    wing_high_lift_mass_coefficient wing_area wing_flap_chord_ratio wing_taper_ratio
    wing_flap_span_ratio design_wing_loading wing_thickness_to_chord_root wing_span
    fuselage_avg_diameter wing_center_chord landing_lift_coefficient_max : ℝ) (h0 : 0 <
    sea_level_density) (h1 : 0 < landing_lift_coefficient_max) (h2 : 0 < design_wing_loading) (h3
    : 0 < wing_taper_ratio) (h4 : 0 < wing_thickness_to_chord_root) (h5 : 0 < wing_center_chord)
    (h6 : 0 < fuselage_avg_diameter - (wing_thickness_to_chord_root * wing_center_chord)) (h7 : 0
    < wing_span) (h8 : 0 < wing_num_flap_segments) :
    HasDerivAt (fun t => out_flap_mass wing_num_flap_segments sea_level_density t wing_area wing_flap_chord_ratio wing_taper_ratio wing_flap_span_ratio design_wing_loading wing_thickness_to_chord_root wing_span fuselage_avg_diameter wing_center_chord landing_lift_coefficient_max) (J_flap_mass__wing_high_lift_mass_coefficient wing_num_flap_segments sea_level_density wing_area wing_flap_chord_ratio wing_taper_ratio wing_flap_span_ratio design_wing_loading wing_thickness_to_chord_root wing_span fuselage_avg_diameter wing_center_chord landing_lift_coefficient_max) wing_high_lift_mass_coefficient := by
  simp only [out_flap_mass, J_flap_mass__wing_high_lift_mass_coefficient, sflap_2, body_to_span_ratio_2, u1, vflap_2, u2, sflap, body_to_span_ratio, vflap, vstall, sqrt_eq_rpow]
  (apply hasDerivAt_of_eq; on_goal 1 => (repeat' comp_step))
  all_goals try comp_side
  all_goals try simp (disch := first | assumption | positivity) only [div_mul_eq_div_div, div_half, inv_half]
  all_goals try simp only [mul_zero, zero_mul, add_zero, zero_add, sub_zero, zero_sub, mul_one, one_mul]
  all_goals try push_cast
  all_goals comp_eq

theorem d_flap_mass__wing_area (wing_num_flap_segments sea_level_density
    wing_high_lift_mass_coefficient wing_area wing_flap_chord_ratio wing_taper_ratio
    wing_flap_span_ratio design_wing_loading wing_thickness_to_chord_root wing_span
    fuselage_avg_diameter wing_center_chord landing_lift_coefficient_max : ℝ) (h0 : 0 <
    sea_level_density) (h1 : 0 < landing_lift_coefficient_max) (h2 : 0 < design_wing_loading) (h3
    : 0 < wing_taper_ratio) (h4 : 0 < wing_thickness_to_chord_root) (h5 : 0 < wing_center_chord)
    (h6 : 0 < fuselage_avg_diameter - (wing_thickness_to_chord_root * wing_center_chord)) (h7 : 0
    < wing_span) (h8 : 0 < wing_num_flap_segments) :
    HasDerivAt (fun t => out_flap_mass wing_num_flap_segments sea_level_density wing_high_lift_mass_coefficient t wing_flap_chord_ratio wing_taper_ratio wing_flap_span_ratio design_wing_loading wing_thickness_to_chord_root wing_span fuselage_avg_diameter wing_center_chord landing_lift_coefficient_max) (J_flap_mass__wing_area wing_num_flap_segments sea_level_density wing_high_lift_mass_coefficient wing_flap_chord_ratio wing_taper_ratio wing_flap_span_ratio design_wing_loading wing_thickness_to_chord_root wing_span fuselage_avg_diameter wing_center_chord landing_lift_coefficient_max) wing_area := by
  simp only [out_flap_mass, J_flap_mass__wing_area, dsflap_dwa, body_to_span_ratio_2, u1, vflap_2, u2, sflap, body_to_span_ratio, vflap, vstall, sqrt_eq_rpow]
  (apply hasDerivAt_of_eq; on_goal 1 => (repeat' comp_step))
  all_goals try comp_side
  all_goals try simp (disch := first | assumption | positivity) only [div_mul_eq_div_div, div_half, inv_half]
  all_goals try simp only [mul_zero, zero_mul, add_zero, zero_add, sub_zero, zero_sub, mul_one, one_mul]
  all_goals try push_cast
  all_goals comp_eq

theorem d_flap_mass__wing_flap_chord_ratio (wing_num_flap_segments sea_level_density
    wing_high_lift_mass_coefficient wing_area wing_flap_chord_ratio wing_taper_ratio
    wing_flap_span_ratio design_wing_loading wing_thickness_to_chord_root wing_span
    fuselage_avg_diameter wing_center_chord landing_lift_coefficient_max : ℝ) (h0 : 0 <
    sea_level_density) (h1 : 0 < landing_lift_coefficient_max) (h2 : 0 < design_wing_loading) (h3
    : 0 < wing_taper_ratio) (h4 : 0 < wing_thickness_to_chord_root) (h5 : 0 < wing_center_chord)
    (h6 : 0 < fuselage_avg_diameter - (wing_thickness_to_chord_root * wing_center_chord)) (h7 : 0
    < wing_span) (h8 : 0 < wing_num_flap_segments) :
    HasDerivAt (fun t => out_flap_mass wing_num_flap_segments sea_level_density wing_high_lift_mass_coefficient wing_area t wing_taper_ratio wing_flap_span_ratio design_wing_loading wing_thickness_to_chord_root wing_span fuselage_avg_diameter wing_center_chord landing_lift_coefficient_max) (J_flap_mass__wing_flap_chord_ratio wing_num_flap_segments sea_level_density wing_high_lift_mass_coefficient wing_area wing_taper_ratio wing_flap_span_ratio design_wing_loading wing_thickness_to_chord_root wing_span fuselage_avg_diameter wing_center_chord landing_lift_coefficient_max) wing_flap_chord_ratio := by
  simp only [out_flap_mass, J_flap_mass__wing_flap_chord_ratio, dsflap_dfcr, body_to_span_ratio_2, u1, vflap_2, u2, sflap, body_to_span_ratio, vflap, vstall, sqrt_eq_rpow]
  (apply hasDerivAt_of_eq; on_goal 1 => (repeat' comp_step))
  all_goals try comp_side
  all_goals try simp (disch := first | assumption | positivity) only [div_mul_eq_div_div, div_half, inv_half]
  all_goals try simp only [mul_zero, zero_mul, add_zero, zero_add, sub_zero, zero_sub, mul_one, one_mul]
  all_goals try push_cast
  all_goals comp_eq

theorem d_flap_mass__wing_taper_ratio (wing_num_flap_segments sea_level_density
    wing_high_lift_mass_coefficient wing_area wing_flap_chord_ratio wing_taper_ratio
    wing_flap_span_ratio design_wing_loading wing_thickness_to_chord_root wing_span
    fuselage_avg_diameter wing_center_chord landing_lift_coefficient_max : ℝ) (h0 : 0 <
    sea_level_density) (h1 : 0 < landing_lift_coefficient_max) (h2 : 0 < design_wing_loading) (h3
    : 0 < wing_taper_ratio) (h4 : 0 < wing_thickness_to_chord_root) (h5 : 0 < wing_center_chord)
    (h6 : 0 < fuselage_avg_diameter - (wing_thickness_to_chord_root * wing_center_chord)) (h7 : 0
    < wing_span) (h8 : 0 < wing_num_flap_segments) :
    HasDerivAt (fun t => out_flap_mass wing_num_flap_segments sea_level_density wing_high_lift_mass_coefficient wing_area wing_flap_chord_ratio t wing_flap_span_ratio design_wing_loading wing_thickness_to_chord_root wing_span fuselage_avg_diameter wing_center_chord landing_lift_coefficient_max) (J_flap_mass__wing_taper_ratio wing_num_flap_segments sea_level_density wing_high_lift_mass_coefficient wing_area wing_flap_chord_ratio wing_taper_ratio wing_flap_span_ratio design_wing_loading wing_thickness_to_chord_root wing_span fuselage_avg_diameter wing_center_chord landing_lift_coefficient_max) wing_taper_ratio := by
  simp only [out_flap_mass, J_flap_mass__wing_taper_ratio, dsflap_dtr, body_to_span_ratio_2, u1, vflap_2, u2, sflap, body_to_span_ratio, vflap, vstall, sqrt_eq_rpow]
  (apply hasDerivAt_of_eq; on_goal 1 => (repeat' comp_step))
  all_goals try comp_side
  all_goals try simp (disch := first | assumption | positivity) only [div_mul_eq_div_div, div_half, inv_half]
  all_goals try simp only [mul_zero, zero_mul, add_zero, zero_add, sub_zero, zero_sub, mul_one, one_mul]
  all_goals try push_cast
  all_goals comp_eq

theorem d_flap_mass__wing_flap_span_ratio (wing_num_flap_segments sea_level_density
    wing_high_lift_mass_coefficient wing_area wing_flap_chord_ratio wing_taper_ratio
    wing_flap_span_ratio design_wing_loading wing_thickness_to_chord_root wing_span
    fuselage_avg_diameter wing_center_chord landing_lift_coefficient_max : ℝ) (h0 : 0 <
    sea_level_density) (h1 : 0 < landing_lift_coefficient_max) (h2 : 0 < design_wing_loading) (h3
    : 0 < wing_taper_ratio) (h4 : 0 < wing_thickness_to_chord_root) (h5 : 0 < wing_center_chord)
    (h6 : 0 < fuselage_avg_diameter - (wing_thickness_to_chord_root * wing_center_chord)) (h7 : 0
    < wing_span) (h8 : 0 < wing_num_flap_segments) :
    HasDerivAt (fun t => out_flap_mass wing_num_flap_segments sea_level_density wing_high_lift_mass_coefficient wing_area wing_flap_chord_ratio wing_taper_ratio t design_wing_loading wing_thickness_to_chord_root wing_span fuselage_avg_diameter wing_center_chord landing_lift_coefficient_max) (J_flap_mass__wing_flap_span_ratio wing_num_flap_segments sea_level_density wing_high_lift_mass_coefficient wing_area wing_flap_chord_ratio wing_taper_ratio wing_flap_span_ratio design_wing_loading landing_lift_coefficient_max) wing_flap_span_ratio := by
  simp only [out_flap_mass, J_flap_mass__wing_flap_span_ratio, dsflap_dfsr, vflap_2, u2, sflap, body_to_span_ratio, vflap, vstall, sqrt_eq_rpow]
  (apply hasDerivAt_of_eq; on_goal 1 => (repeat' comp_step))
  all_goals try comp_side
  all_goals try simp (disch := first | assumption | positivity) only [div_mul_eq_div_div, div_half, inv_half]
  all_goals try simp only [mul_zero, zero_mul, add_zero, zero_add, sub_zero, zero_sub, mul_one, one_mul]
  all_goals try push_cast
  all_goals comp_eq

theorem d_flap_mass__design_wing_loading (wing_num_flap_segments sea_level_density
    wing_high_lift_mass_coefficient wing_area wing_flap_chord_ratio wing_taper_ratio
    wing_flap_span_ratio design_wing_loading wing_thickness_to_chord_root wing_span
    fuselage_avg_diameter wing_center_chord landing_lift_coefficient_max : ℝ) (h0 : 0 <
    sea_level_density) (h1 : 0 < landing_lift_coefficient_max) (h2 : 0 < design_wing_loading) (h3
    : 0 < wing_taper_ratio) (h4 : 0 < wing_thickness_to_chord_root) (h5 : 0 < wing_center_chord)
    (h6 : 0 < fuselage_avg_diameter - (wing_thickness_to_chord_root * wing_center_chord)) (h7 : 0
    < wing_span) (h8 : 0 < wing_num_flap_segments) :
    HasDerivAt (fun t => out_flap_mass wing_num_flap_segments sea_level_density wing_high_lift_mass_coefficient wing_area wing_flap_chord_ratio wing_taper_ratio wing_flap_span_ratio t wing_thickness_to_chord_root wing_span fuselage_avg_diameter wing_center_chord landing_lift_coefficient_max) (J_flap_mass__design_wing_loading wing_num_flap_segments sea_level_density wing_high_lift_mass_coefficient wing_area wing_flap_chord_ratio wing_taper_ratio wing_flap_span_ratio design_wing_loading wing_thickness_to_chord_root wing_span fuselage_avg_diameter wing_center_chord landing_lift_coefficient_max) design_wing_loading := by
  simp only [out_flap_mass, J_flap_mass__design_wing_loading, sflap_2, body_to_span_ratio_2, u1, dvflap_dwl, vflap_2, u2, sflap, body_to_span_ratio, vflap, vstall, sqrt_eq_rpow]
  (apply hasDerivAt_of_eq; on_goal 1 => (repeat' comp_step))
  all_goals try comp_side
  all_goals try simp (disch := first | assumption | positivity) only [div_mul_eq_div_div, div_half, inv_half]
  all_goals try simp only [mul_zero, zero_mul, add_zero, zero_add, sub_zero, zero_sub, mul_one, one_mul]
  all_goals try push_cast
  all_goals comp_eq

theorem d_flap_mass__wing_thickness_to_chord_root (wing_num_flap_segments sea_level_density
    wing_high_lift_mass_coefficient wing_area wing_flap_chord_ratio wing_taper_ratio
    wing_flap_span_ratio design_wing_loading wing_thickness_to_chord_root wing_span
    fuselage_avg_diameter wing_center_chord landing_lift_coefficient_max : ℝ) (h0 : 0 <
    sea_level_density) (h1 : 0 < landing_lift_coefficient_max) (h2 : 0 < design_wing_loading) (h3
    : 0 < wing_taper_ratio) (h4 : 0 < wing_thickness_to_chord_root) (h5 : 0 < wing_center_chord)
    (h6 : 0 < fuselage_avg_diameter - (wing_thickness_to_chord_root * wing_center_chord)) (h7 : 0
    < wing_span) (h8 : 0 < wing_num_flap_segments) :
    HasDerivAt (fun t => out_flap_mass wing_num_flap_segments sea_level_density wing_high_lift_mass_coefficient wing_area wing_flap_chord_ratio wing_taper_ratio wing_flap_span_ratio design_wing_loading t wing_span fuselage_avg_diameter wing_center_chord landing_lift_coefficient_max) (J_flap_mass__wing_thickness_to_chord_root wing_num_flap_segments sea_level_density wing_high_lift_mass_coefficient wing_area wing_flap_chord_ratio wing_taper_ratio design_wing_loading wing_thickness_to_chord_root wing_span fuselage_avg_diameter wing_center_chord landing_lift_coefficient_max) wing_thickness_to_chord_root := by
  simp only [out_flap_mass, J_flap_mass__wing_thickness_to_chord_root, dbtsr_dtcrr, dsflap_dbtsr, body_to_span_ratio_2, u1, vflap_2, u2, sflap, body_to_span_ratio, vflap, vstall, sqrt_eq_rpow]
  (apply hasDerivAt_of_eq; on_goal 1 => (repeat' comp_step))
  all_goals try comp_side
  all_goals try simp (disch := first | assumption | positivity) only [div_mul_eq_div_div, div_half, inv_half]
  all_goals try simp only [mul_zero, zero_mul, add_zero, zero_add, sub_zero, zero_sub, mul_one, one_mul]
  all_goals try push_cast
  all_goals comp_eq

theorem d_flap_mass__wing_span (wing_num_flap_segments sea_level_density
    wing_high_lift_mass_coefficient wing_area wing_flap_chord_ratio wing_taper_ratio
    wing_flap_span_ratio design_wing_loading wing_thickness_to_chord_root wing_span
    fuselage_avg_diameter wing_center_chord landing_lift_coefficient_max : ℝ) (h0 : 0 <
    sea_level_density) (h1 : 0 < landing_lift_coefficient_max) (h2 : 0 < design_wing_loading) (h3
    : 0 < wing_taper_ratio) (h4 : 0 < wing_thickness_to_chord_root) (h5 : 0 < wing_center_chord)
    (h6 : 0 < fuselage_avg_diameter - (wing_thickness_to_chord_root * wing_center_chord)) (h7 : 0
    < wing_span) (h8 : 0 < wing_num_flap_segments) :
    HasDerivAt (fun t => out_flap_mass wing_num_flap_segments sea_level_density wing_high_lift_mass_coefficient wing_area wing_flap_chord_ratio wing_taper_ratio wing_flap_span_ratio design_wing_loading wing_thickness_to_chord_root t fuselage_avg_diameter wing_center_chord landing_lift_coefficient_max) (J_flap_mass__wing_span wing_num_flap_segments sea_level_density wing_high_lift_mass_coefficient wing_area wing_flap_chord_ratio wing_taper_ratio design_wing_loading wing_thickness_to_chord_root wing_span fuselage_avg_diameter wing_center_chord landing_lift_coefficient_max) wing_span := by
  simp only [out_flap_mass, J_flap_mass__wing_span, dbtsr_dwingspan, dsflap_dbtsr, body_to_span_ratio_2, u1, vflap_2, u2, sflap, body_to_span_ratio, vflap, vstall, sqrt_eq_rpow]
  (apply hasDerivAt_of_eq; on_goal 1 => (repeat' comp_step))
  all_goals try comp_side
  all_goals try simp (disch := first | assumption | positivity) only [div_mul_eq_div_div, div_half, inv_half]
  all_goals try simp only [mul_zero, zero_mul, add_zero, zero_add, sub_zero, zero_sub, mul_one, one_mul]
  all_goals try push_cast
  all_goals comp_eq

theorem d_flap_mass__fuselage_avg_diameter (wing_num_flap_segments sea_level_density
    wing_high_lift_mass_coefficient wing_area wing_flap_chord_ratio wing_taper_ratio
    wing_flap_span_ratio design_wing_loading wing_thickness_to_chord_root wing_span
    fuselage_avg_diameter wing_center_chord landing_lift_coefficient_max : ℝ) (h0 : 0 <
    sea_level_density) (h1 : 0 < landing_lift_coefficient_max) (h2 : 0 < design_wing_loading) (h3
    : 0 < wing_taper_ratio) (h4 : 0 < wing_thickness_to_chord_root) (h5 : 0 < wing_center_chord)
    (h6 : 0 < fuselage_avg_diameter - (wing_thickness_to_chord_root * wing_center_chord)) (h7 : 0
    < wing_span) (h8 : 0 < wing_num_flap_segments) :
    HasDerivAt (fun t => out_flap_mass wing_num_flap_segments sea_level_density wing_high_lift_mass_coefficient wing_area wing_flap_chord_ratio wing_taper_ratio wing_flap_span_ratio design_wing_loading wing_thickness_to_chord_root wing_span t wing_center_chord landing_lift_coefficient_max) (J_flap_mass__fuselage_avg_diameter wing_num_flap_segments sea_level_density wing_high_lift_mass_coefficient wing_area wing_flap_chord_ratio wing_taper_ratio design_wing_loading wing_thickness_to_chord_root wing_span fuselage_avg_diameter wing_center_chord landing_lift_coefficient_max) fuselage_avg_diameter := by
  simp only [out_flap_mass, J_flap_mass__fuselage_avg_diameter, dbtsr_dcw, dsflap_dbtsr, body_to_span_ratio_2, u1, vflap_2, u2, sflap, body_to_span_ratio, vflap, vstall, sqrt_eq_rpow]
  (apply hasDerivAt_of_eq; on_goal 1 => (repeat' comp_step))
  all_goals try comp_side
  all_goals try simp (disch := first | assumption | positivity) only [div_mul_eq_div_div, div_half, inv_half]
  all_goals try simp only [mul_zero, zero_mul, add_zero, zero_add, sub_zero, zero_sub, mul_one, one_mul]
  all_goals try push_cast
  all_goals comp_eq

theorem d_flap_mass__wing_center_chord (wing_num_flap_segments sea_level_density
    wing_high_lift_mass_coefficient wing_area wing_flap_chord_ratio wing_taper_ratio
    wing_flap_span_ratio design_wing_loading wing_thickness_to_chord_root wing_span
    fuselage_avg_diameter wing_center_chord landing_lift_coefficient_max : ℝ) (h0 : 0 <
    sea_level_density) (h1 : 0 < landing_lift_coefficient_max) (h2 : 0 < design_wing_loading) (h3
    : 0 < wing_taper_ratio) (h4 : 0 < wing_thickness_to_chord_root) (h5 : 0 < wing_center_chord)
    (h6 : 0 < fuselage_avg_diameter - (wing_thickness_to_chord_root * wing_center_chord)) (h7 : 0
    < wing_span) (h8 : 0 < wing_num_flap_segments) :
    HasDerivAt (fun t => out_flap_mass wing_num_flap_segments sea_level_density wing_high_lift_mass_coefficient wing_area wing_flap_chord_ratio wing_taper_ratio wing_flap_span_ratio design_wing_loading wing_thickness_to_chord_root wing_span fuselage_avg_diameter t landing_lift_coefficient_max) (J_flap_mass__wing_center_chord wing_num_flap_segments sea_level_density wing_high_lift_mass_coefficient wing_area wing_flap_chord_ratio wing_taper_ratio design_wing_loading wing_thickness_to_chord_root wing_span fuselage_avg_diameter wing_center_chord landing_lift_coefficient_max) wing_center_chord := by
  simp only [out_flap_mass, J_flap_mass__wing_center_chord, dbtsr_dcc, dsflap_dbtsr, body_to_span_ratio_2, u1, vflap_2, u2, sflap, body_to_span_ratio, vflap, vstall, sqrt_eq_rpow]
  (apply hasDerivAt_of_eq; on_goal 1 => (repeat' comp_step))
  all_goals try comp_side
  all_goals try simp (disch := first | assumption | positivity) only [div_mul_eq_div_div, div_half, inv_half]
  all_goals try simp only [mul_zero, zero_mul, add_zero, zero_add, sub_zero, zero_sub, mul_one, one_mul]
  all_goals try push_cast
  all_goals comp_eq

theorem d_flap_mass__landing_lift_coefficient_max (wing_num_flap_segments sea_level_density
    wing_high_lift_mass_coefficient wing_area wing_flap_chord_ratio wing_taper_ratio
    wing_flap_span_ratio design_wing_loading wing_thickness_to_chord_root wing_span
    fuselage_avg_diameter wing_center_chord landing_lift_coefficient_max : ℝ) (h0 : 0 <
    sea_level_density) (h1 : 0 < landing_lift_coefficient_max) (h2 : 0 < design_wing_loading) (h3
    : 0 < wing_taper_ratio) (h4 : 0 < wing_thickness_to_chord_root) (h5 : 0 < wing_center_chord)
    (h6 : 0 < fuselage_avg_diameter - (wing_thickness_to_chord_root * wing_center_chord)) (h7 : 0
    < wing_span) (h8 : 0 < wing_num_flap_segments) :
    HasDerivAt (fun t => out_flap_mass wing_num_flap_segments sea_level_density wing_high_lift_mass_coefficient wing_area wing_flap_chord_ratio wing_taper_ratio wing_flap_span_ratio design_wing_loading wing_thickness_to_chord_root wing_span fuselage_avg_diameter wing_center_chord t) (J_flap_mass__landing_lift_coefficient_max wing_num_flap_segments sea_level_density wing_high_lift_mass_coefficient wing_area wing_flap_chord_ratio wing_taper_ratio wing_flap_span_ratio design_wing_loading wing_thickness_to_chord_root wing_span fuselage_avg_diameter wing_center_chord landing_lift_coefficient_max) landing_lift_coefficient_max := by
  simp only [out_flap_mass, J_flap_mass__landing_lift_coefficient_max, sflap_2, body_to_span_ratio_2, u1, dvflap_dcmfl, vflap_2, u2, sflap, body_to_span_ratio, vflap, vstall, sqrt_eq_rpow]
  (apply hasDerivAt_of_eq; on_goal 1 => (repeat' comp_step))
  all_goals try comp_side
  all_goals try simp (disch := first | assumption | positivity) only [div_mul_eq_div_div, div_half, inv_half]
  all_goals try simp only [mul_zero, zero_mul, add_zero, zero_add, sub_zero, zero_sub, mul_one, one_mul]
  all_goals try push_cast
  all_goals comp_eq

theorem d_wing_high_lift_mass__wing_high_lift_mass_coefficient (wing_num_flap_segments
    sea_level_density wing_high_lift_mass_coefficient wing_area wing_slat_chord_ratio
    wing_flap_chord_ratio wing_taper_ratio wing_flap_span_ratio wing_slat_span_ratio
    design_wing_loading wing_thickness_to_chord_root wing_span fuselage_avg_diameter
    wing_center_chord landing_lift_coefficient_max : ℝ) (h0 : 0 < sea_level_density) (h1 : 0 <
    landing_lift_coefficient_max) (h2 : 0 < design_wing_loading) (h3 : 0 < wing_taper_ratio) (h4 :
    0 < wing_thickness_to_chord_root) (h5 : 0 < wing_center_chord) (h6 : 0 < fuselage_avg_diameter
    - (wing_thickness_to_chord_root * wing_center_chord)) (h7 : 0 < wing_span) (h8 : 0 <
    wing_num_flap_segments) (h9 : 0 < wing_slat_chord_ratio) (h10 : 0 < wing_area) (h11 : 0 <
    wing_slat_span_ratio) (h12 : 0 < 2 - ((1 - wing_taper_ratio) * ((99 / 100) + (((2 * (sqrt
    ((wing_thickness_to_chord_root * wing_center_chord) * (fuselage_avg_diameter -
    (wing_thickness_to_chord_root * wing_center_chord))))) + (2 / 5)) / wing_span)))) :
    HasDerivAt (fun t => out_wing_high_lift_mass wing_num_flap_segments sea_level_density t wing_area wing_slat_chord_ratio wing_flap_chord_ratio wing_taper_ratio wing_flap_span_ratio wing_slat_span_ratio design_wing_loading wing_thickness_to_chord_root wing_span fuselage_avg_diameter wing_center_chord landing_lift_coefficient_max) (J_wing_high_lift_mass__wing_high_lift_mass_coefficient wing_num_flap_segments sea_level_density wing_area wing_flap_chord_ratio wing_taper_ratio wing_flap_span_ratio design_wing_loading wing_thickness_to_chord_root wing_span fuselage_avg_diameter wing_center_chord landing_lift_coefficient_max) wing_high_lift_mass_coefficient := by
  have e0 : ∀ x : ℝ, 0 < x → x ^ ((113 / 100) : ℝ) = x ^ ((13 / 100) : ℝ) * x ^ 1 := fun x hx => rpow_up hx 1 (by norm_num)
  simp only [out_wing_high_lift_mass, J_wing_high_lift_mass__wing_high_lift_mass_coefficient, sflap_2, body_to_span_ratio_2, u1, vflap_2, u2, wled, sle, sflap, body_to_span_ratio, vflap, vstall, sqrt_eq_rpow]
  (apply hasDerivAt_of_eq; on_goal 1 => (repeat' comp_step))
  all_goals try comp_side
  all_goals try simp (disch := first | assumption | positivity) only [e0, div_mul_eq_div_div, div_half, inv_half]
  all_goals try simp only [mul_zero, zero_mul, add_zero, zero_add, sub_zero, zero_sub, mul_one, one_mul]
  all_goals try push_cast
  all_goals comp_eq

theorem d_wing_high_lift_mass__wing_area (wing_num_flap_segments sea_level_density
    wing_high_lift_mass_coefficient wing_area wing_slat_chord_ratio wing_flap_chord_ratio
    wing_taper_ratio wing_flap_span_ratio wing_slat_span_ratio design_wing_loading
    wing_thickness_to_chord_root wing_span fuselage_avg_diameter wing_center_chord
    landing_lift_coefficient_max : ℝ) (h0 : 0 < sea_level_density) (h1 : 0 <
    landing_lift_coefficient_max) (h2 : 0 < design_wing_loading) (h3 : 0 < wing_taper_ratio) (h4 :
    0 < wing_thickness_to_chord_root) (h5 : 0 < wing_center_chord) (h6 : 0 < fuselage_avg_diameter
    - (wing_thickness_to_chord_root * wing_center_chord)) (h7 : 0 < wing_span) (h8 : 0 <
    wing_num_flap_segments) (h9 : 0 < wing_slat_chord_ratio) (h10 : 0 < wing_area) (h11 : 0 <
    wing_slat_span_ratio) (h12 : 0 < 2 - ((1 - wing_taper_ratio) * ((99 / 100) + (((2 * (sqrt
    ((wing_thickness_to_chord_root * wing_center_chord) * (fuselage_avg_diameter -
    (wing_thickness_to_chord_root * wing_center_chord))))) + (2 / 5)) / wing_span)))) (h13 : 0 < 2
    - ((1 - wing_taper_ratio) * ((99 / 100) + (((2 * (sqrt ((wing_thickness_to_chord_root *
    wing_center_chord) * (fuselage_avg_diameter - (wing_thickness_to_chord_root *
    wing_center_chord))))) + (2 / 5)) / wing_span)))) :
    HasDerivAt (fun t => out_wing_high_lift_mass wing_num_flap_segments sea_level_density wing_high_lift_mass_coefficient t wing_slat_chord_ratio wing_flap_chord_ratio wing_taper_ratio wing_flap_span_ratio wing_slat_span_ratio design_wing_loading wing_thickness_to_chord_root wing_span fuselage_avg_diameter wing_center_chord landing_lift_coefficient_max) (J_wing_high_lift_mass__wing_area wing_num_flap_segments sea_level_density wing_high_lift_mass_coefficient wing_area wing_slat_chord_ratio wing_flap_chord_ratio wing_taper_ratio wing_flap_span_ratio wing_slat_span_ratio design_wing_loading wing_thickness_to_chord_root wing_span fuselage_avg_diameter wing_center_chord landing_lift_coefficient_max) wing_area := by
  have hf12 : 0 < 2 - ((1 - wing_taper_ratio) * ((99 / 100) + (body_to_span_ratio wing_thickness_to_chord_root wing_span fuselage_avg_diameter wing_center_chord))) := by simp only [dsle_dwa, sle_2, dsflap_dwa, body_to_span_ratio_2, u1, vflap_2, u2, wled, sle, sflap, body_to_span_ratio, vflap, vstall]; exact h12
  have hf13 : 0 < 2 - ((1 - wing_taper_ratio) * ((99 / 100) + (body_to_span_ratio_2 wing_thickness_to_chord_root wing_span fuselage_avg_diameter wing_center_chord))) := by simp only [dsle_dwa, sle_2, dsflap_dwa, body_to_span_ratio_2, u1, vflap_2, u2, wled, sle, sflap, body_to_span_ratio, vflap, vstall]; exact h13
  have hp0 : 0 < sle wing_area wing_slat_chord_ratio wing_taper_ratio wing_slat_span_ratio wing_thickness_to_chord_root wing_span fuselage_avg_diameter wing_center_chord := by simp only [dsle_dwa, sle_2, dsflap_dwa, body_to_span_ratio_2, u1, vflap_2, u2, wled, sle, sflap, body_to_span_ratio, vflap, vstall]; comp_side
  have hp1 : 0 < sle_2 wing_area wing_slat_chord_ratio wing_taper_ratio wing_slat_span_ratio wing_thickness_to_chord_root wing_span fuselage_avg_diameter wing_center_chord := by simp only [dsle_dwa, sle_2, dsflap_dwa, body_to_span_ratio_2, u1, vflap_2, u2, wled, sle, sflap, body_to_span_ratio, vflap, vstall]; comp_side
  have hp2 : 0 < u2 sea_level_density design_wing_loading landing_lift_coefficient_max := by simp only [dsle_dwa, sle_2, dsflap_dwa, body_to_span_ratio_2, u1, vflap_2, u2, wled, sle, sflap, body_to_span_ratio, vflap, vstall]; comp_side
  have hp3 : 0 < u1 wing_thickness_to_chord_root fuselage_avg_diameter wing_center_chord := by simp only [dsle_dwa, sle_2, dsflap_dwa, body_to_span_ratio_2, u1, vflap_2, u2, wled, sle, sflap, body_to_span_ratio, vflap, vstall]; comp_side
  have e0 : ∀ x : ℝ, 0 < x → x ^ ((113 / 100) : ℝ) = x ^ ((13 / 100) : ℝ) * x ^ 1 := fun x hx => rpow_up hx 1 (by norm_num)
  obtain ⟨D_sflap, hD_sflap, k_sflap⟩ : ∃ D : ℝ, D = ((wing_flap_chord_ratio / (1 + wing_taper_ratio)) * (wing_flap_span_ratio - (body_to_span_ratio wing_thickness_to_chord_root wing_span fuselage_avg_diameter wing_center_chord))) * (2 - ((1 - wing_taper_ratio) * (wing_flap_span_ratio + (body_to_span_ratio wing_thickness_to_chord_root wing_span fuselage_avg_diameter wing_center_chord)))) ∧
      HasDerivAt (fun t => sflap t wing_flap_chord_ratio wing_taper_ratio wing_flap_span_ratio wing_thickness_to_chord_root wing_span fuselage_avg_diameter wing_center_chord) D wing_area := by
    refine ⟨_, rfl, ?_⟩
    simp only [sflap]
    apply hasDerivAt_of_eq; on_goal 1 => (repeat' comp_step)
    all_goals try first | comp_side | (apply HasDerivAt.continuousAt; (repeat' comp_step); all_goals comp_side)
    all_goals try simp (disch := first | assumption | positivity) only [e0, div_mul_eq_div_div, div_half, inv_half]
    all_goals try simp only [mul_zero, zero_mul, add_zero, zero_add, sub_zero, zero_sub, mul_one, one_mul, sub_self]
    all_goals try push_cast
    all_goals comp_eq
  obtain ⟨D_sle, hD_sle, k_sle⟩ : ∃ D : ℝ, D = ((wing_slat_chord_ratio / (1 + wing_taper_ratio)) * wing_slat_span_ratio) * (2 - ((1 - wing_taper_ratio) * ((99 / 100) + (body_to_span_ratio wing_thickness_to_chord_root wing_span fuselage_avg_diameter wing_center_chord)))) ∧
      HasDerivAt (fun t => sle t wing_slat_chord_ratio wing_taper_ratio wing_slat_span_ratio wing_thickness_to_chord_root wing_span fuselage_avg_diameter wing_center_chord) D wing_area := by
    refine ⟨_, rfl, ?_⟩
    simp only [sle]
    apply hasDerivAt_of_eq; on_goal 1 => (repeat' comp_step)
    all_goals try first | comp_side | (apply HasDerivAt.continuousAt; (repeat' comp_step); all_goals comp_side)
    all_goals try simp (disch := first | assumption | positivity) only [e0, div_mul_eq_div_div, div_half, inv_half]
    all_goals try simp only [mul_zero, zero_mul, add_zero, zero_add, sub_zero, zero_sub, mul_one, one_mul, sub_self]
    all_goals try push_cast
    all_goals comp_eq
  obtain ⟨D_wled, hD_wled, k_wled⟩ : ∃ D : ℝ, D = (82 / 25) * (((113 / 100) * ((sle wing_area wing_slat_chord_ratio wing_taper_ratio wing_slat_span_ratio wing_thickness_to_chord_root wing_span fuselage_avg_diameter wing_center_chord) ^ ((13 / 100) : ℝ))) * D_sle) ∧
      HasDerivAt (fun t => wled t wing_slat_chord_ratio wing_taper_ratio wing_slat_span_ratio wing_thickness_to_chord_root wing_span fuselage_avg_diameter wing_center_chord) D wing_area := by
    refine ⟨_, rfl, ?_⟩
    simp only [wled]
    apply hasDerivAt_of_eq; on_goal 1 => (repeat' comp_step)
    all_goals try first | comp_side | (apply HasDerivAt.continuousAt; (repeat' comp_step); all_goals comp_side)
    all_goals try simp (disch := first | assumption | positivity) only [e0, div_mul_eq_div_div, div_half, inv_half]
    all_goals try simp only [mul_zero, zero_mul, add_zero, zero_add, sub_zero, zero_sub, mul_one, one_mul, sub_self]
    all_goals try push_cast
    all_goals comp_eq
  have al_sle_2 : sle_2 wing_area wing_slat_chord_ratio wing_taper_ratio wing_slat_span_ratio wing_thickness_to_chord_root wing_span fuselage_avg_diameter wing_center_chord = sle wing_area wing_slat_chord_ratio wing_taper_ratio wing_slat_span_ratio wing_thickness_to_chord_root wing_span fuselage_avg_diameter wing_center_chord := rfl
  have al_body_to_span_ratio_2 : body_to_span_ratio_2 wing_thickness_to_chord_root wing_span fuselage_avg_diameter wing_center_chord = body_to_span_ratio wing_thickness_to_chord_root wing_span fuselage_avg_diameter wing_center_chord := rfl
  have al_vflap_2 : vflap_2 sea_level_density design_wing_loading landing_lift_coefficient_max = vflap sea_level_density design_wing_loading landing_lift_coefficient_max := rfl
  try simp only [out_wing_high_lift_mass, J_wing_high_lift_mass__wing_area, dsle_dwa, dsflap_dwa, u1, u2, al_sle_2, al_body_to_span_ratio_2, al_vflap_2]
  all_goals (apply hasDerivAt_of_eq; on_goal 1 => (repeat' comp_step))
  all_goals try first | comp_side | (apply HasDerivAt.continuousAt; (repeat' comp_step); all_goals comp_side)
  all_goals try simp only [hD_sflap, hD_sle, hD_wled]
  all_goals try simp (disch := first | assumption | positivity) only [e0, div_mul_eq_div_div, div_half, inv_half]
  all_goals try simp only [mul_zero, zero_mul, add_zero, zero_add, sub_zero, zero_sub, mul_one, one_mul, sub_self]
  all_goals try push_cast
  all_goals comp_eq

theorem d_wing_high_lift_mass__wing_slat_chord_ratio (wing_num_flap_segments sea_level_density
    wing_high_lift_mass_coefficient wing_area wing_slat_chord_ratio wing_flap_chord_ratio
    wing_taper_ratio wing_flap_span_ratio wing_slat_span_ratio design_wing_loading
    wing_thickness_to_chord_root wing_span fuselage_avg_diameter wing_center_chord
    landing_lift_coefficient_max : ℝ) (h0 : 0 < sea_level_density) (h1 : 0 <
    landing_lift_coefficient_max) (h2 : 0 < design_wing_loading) (h3 : 0 < wing_taper_ratio) (h4 :
    0 < wing_thickness_to_chord_root) (h5 : 0 < wing_center_chord) (h6 : 0 < fuselage_avg_diameter
    - (wing_thickness_to_chord_root * wing_center_chord)) (h7 : 0 < wing_span) (h8 : 0 <
    wing_num_flap_segments) (h9 : 0 < wing_slat_chord_ratio) (h10 : 0 < wing_area) (h11 : 0 <
    wing_slat_span_ratio) (h12 : 0 < 2 - ((1 - wing_taper_ratio) * ((99 / 100) + (((2 * (sqrt
    ((wing_thickness_to_chord_root * wing_center_chord) * (fuselage_avg_diameter -
    (wing_thickness_to_chord_root * wing_center_chord))))) + (2 / 5)) / wing_span)))) (h13 : 0 < 2
    - ((1 - wing_taper_ratio) * ((99 / 100) + (((2 * (sqrt ((wing_thickness_to_chord_root *
    wing_center_chord) * (fuselage_avg_diameter - (wing_thickness_to_chord_root *
    wing_center_chord))))) + (2 / 5)) / wing_span)))) :
    HasDerivAt (fun t => out_wing_high_lift_mass wing_num_flap_segments sea_level_density wing_high_lift_mass_coefficient wing_area t wing_flap_chord_ratio wing_taper_ratio wing_flap_span_ratio wing_slat_span_ratio design_wing_loading wing_thickness_to_chord_root wing_span fuselage_avg_diameter wing_center_chord landing_lift_coefficient_max) (J_wing_high_lift_mass__wing_slat_chord_ratio wing_area wing_slat_chord_ratio wing_taper_ratio wing_slat_span_ratio wing_thickness_to_chord_root wing_span fuselage_avg_diameter wing_center_chord) wing_slat_chord_ratio := by
  have hf12 : 0 < 2 - ((1 - wing_taper_ratio) * ((99 / 100) + (body_to_span_ratio wing_thickness_to_chord_root wing_span fuselage_avg_diameter wing_center_chord))) := by simp only [dsle_dscr, sle_2, body_to_span_ratio_2, u1, wled, sle, sflap, body_to_span_ratio, vflap, vstall]; exact h12
  have hf13 : 0 < 2 - ((1 - wing_taper_ratio) * ((99 / 100) + (body_to_span_ratio_2 wing_thickness_to_chord_root wing_span fuselage_avg_diameter wing_center_chord))) := by simp only [dsle_dscr, sle_2, body_to_span_ratio_2, u1, wled, sle, sflap, body_to_span_ratio, vflap, vstall]; exact h13
  have hp0 : 0 < sle wing_area wing_slat_chord_ratio wing_taper_ratio wing_slat_span_ratio wing_thickness_to_chord_root wing_span fuselage_avg_diameter wing_center_chord := by simp only [dsle_dscr, sle_2, body_to_span_ratio_2, u1, wled, sle, sflap, body_to_span_ratio, vflap, vstall]; comp_side
  have hp1 : 0 < sle_2 wing_area wing_slat_chord_ratio wing_taper_ratio wing_slat_span_ratio wing_thickness_to_chord_root wing_span fuselage_avg_diameter wing_center_chord := by simp only [dsle_dscr, sle_2, body_to_span_ratio_2, u1, wled, sle, sflap, body_to_span_ratio, vflap, vstall]; comp_side
  have hp2 : 0 < u1 wing_thickness_to_chord_root fuselage_avg_diameter wing_center_chord := by simp only [dsle_dscr, sle_2, body_to_span_ratio_2, u1, wled, sle, sflap, body_to_span_ratio, vflap, vstall]; comp_side
  have e0 : ∀ x : ℝ, 0 < x → x ^ ((113 / 100) : ℝ) = x ^ ((13 / 100) : ℝ) * x ^ 1 := fun x hx => rpow_up hx 1 (by norm_num)
  obtain ⟨D_sle, hD_sle, k_sle⟩ : ∃ D : ℝ, D = ((wing_area / (1 + wing_taper_ratio)) * wing_slat_span_ratio) * (2 - ((1 - wing_taper_ratio) * ((99 / 100) + (body_to_span_ratio wing_thickness_to_chord_root wing_span fuselage_avg_diameter wing_center_chord)))) ∧
      HasDerivAt (fun t => sle wing_area t wing_taper_ratio wing_slat_span_ratio wing_thickness_to_chord_root wing_span fuselage_avg_diameter wing_center_chord) D wing_slat_chord_ratio := by
    refine ⟨_, rfl, ?_⟩
    simp only [sle]
    apply hasDerivAt_of_eq; on_goal 1 => (repeat' comp_step)
    all_goals try first | comp_side | (apply HasDerivAt.continuousAt; (repeat' comp_step); all_goals comp_side)
    all_goals try simp (disch := first | assumption | positivity) only [e0, div_mul_eq_div_div, div_half, inv_half]
    all_goals try simp only [mul_zero, zero_mul, add_zero, zero_add, sub_zero, zero_sub, mul_one, one_mul, sub_self]
    all_goals try push_cast
    all_goals comp_eq
  obtain ⟨D_wled, hD_wled, k_wled⟩ : ∃ D : ℝ, D = (82 / 25) * (((113 / 100) * ((sle wing_area wing_slat_chord_ratio wing_taper_ratio wing_slat_span_ratio wing_thickness_to_chord_root wing_span fuselage_avg_diameter wing_center_chord) ^ ((13 / 100) : ℝ))) * D_sle) ∧
      HasDerivAt (fun t => wled wing_area t wing_taper_ratio wing_slat_span_ratio wing_thickness_to_chord_root wing_span fuselage_avg_diameter wing_center_chord) D wing_slat_chord_ratio := by
    refine ⟨_, rfl, ?_⟩
    simp only [wled]
    apply hasDerivAt_of_eq; on_goal 1 => (repeat' comp_step)
    all_goals try first | comp_side | (apply HasDerivAt.continuousAt; (repeat' comp_step); all_goals comp_side)
    all_goals try simp (disch := first | assumption | positivity) only [e0, div_mul_eq_div_div, div_half, inv_half]
    all_goals try simp only [mul_zero, zero_mul, add_zero, zero_add, sub_zero, zero_sub, mul_one, one_mul, sub_self]
    all_goals try push_cast
    all_goals comp_eq
  have al_sle_2 : sle_2 wing_area wing_slat_chord_ratio wing_taper_ratio wing_slat_span_ratio wing_thickness_to_chord_root wing_span fuselage_avg_diameter wing_center_chord = sle wing_area wing_slat_chord_ratio wing_taper_ratio wing_slat_span_ratio wing_thickness_to_chord_root wing_span fuselage_avg_diameter wing_center_chord := rfl
  have al_body_to_span_ratio_2 : body_to_span_ratio_2 wing_thickness_to_chord_root wing_span fuselage_avg_diameter wing_center_chord = body_to_span_ratio wing_thickness_to_chord_root wing_span fuselage_avg_diameter wing_center_chord := rfl
  try simp only [out_wing_high_lift_mass, J_wing_high_lift_mass__wing_slat_chord_ratio, dsle_dscr, u1, al_sle_2, al_body_to_span_ratio_2]
  all_goals (apply hasDerivAt_of_eq; on_goal 1 => (repeat' comp_step))
  all_goals try first | comp_side | (apply HasDerivAt.continuousAt; (repeat' comp_step); all_goals comp_side)
  all_goals try simp only [hD_sle, hD_wled]
  all_goals try simp (disch := first | assumption | positivity) only [e0, div_mul_eq_div_div, div_half, inv_half]
  all_goals try simp only [mul_zero, zero_mul, add_zero, zero_add, sub_zero, zero_sub, mul_one, one_mul, sub_self]
  all_goals try push_cast
  all_goals comp_eq

theorem d_wing_high_lift_mass__wing_flap_chord_ratio (wing_num_flap_segments sea_level_density
    wing_high_lift_mass_coefficient wing_area wing_slat_chord_ratio wing_flap_chord_ratio
    wing_taper_ratio wing_flap_span_ratio wing_slat_span_ratio design_wing_loading
    wing_thickness_to_chord_root wing_span fuselage_avg_diameter wing_center_chord
    landing_lift_coefficient_max : ℝ) (h0 : 0 < sea_level_density) (h1 : 0 <
    landing_lift_coefficient_max) (h2 : 0 < design_wing_loading) (h3 : 0 < wing_taper_ratio) (h4 :
    0 < wing_thickness_to_chord_root) (h5 : 0 < wing_center_chord) (h6 : 0 < fuselage_avg_diameter
    - (wing_thickness_to_chord_root * wing_center_chord)) (h7 : 0 < wing_span) (h8 : 0 <
    wing_num_flap_segments) (h9 : 0 < wing_slat_chord_ratio) (h10 : 0 < wing_area) (h11 : 0 <
    wing_slat_span_ratio) (h12 : 0 < 2 - ((1 - wing_taper_ratio) * ((99 / 100) + (((2 * (sqrt
    ((wing_thickness_to_chord_root * wing_center_chord) * (fuselage_avg_diameter -
    (wing_thickness_to_chord_root * wing_center_chord))))) + (2 / 5)) / wing_span)))) :
    HasDerivAt (fun t => out_wing_high_lift_mass wing_num_flap_segments sea_level_density wing_high_lift_mass_coefficient wing_area wing_slat_chord_ratio t wing_taper_ratio wing_flap_span_ratio wing_slat_span_ratio design_wing_loading wing_thickness_to_chord_root wing_span fuselage_avg_diameter wing_center_chord landing_lift_coefficient_max) (J_wing_high_lift_mass__wing_flap_chord_ratio wing_num_flap_segments sea_level_density wing_high_lift_mass_coefficient wing_area wing_taper_ratio wing_flap_span_ratio design_wing_loading wing_thickness_to_chord_root wing_span fuselage_avg_diameter wing_center_chord landing_lift_coefficient_max) wing_flap_chord_ratio := by
  have e0 : ∀ x : ℝ, 0 < x → x ^ ((113 / 100) : ℝ) = x ^ ((13 / 100) : ℝ) * x ^ 1 := fun x hx => rpow_up hx 1 (by norm_num)
  simp only [out_wing_high_lift_mass, J_wing_high_lift_mass__wing_flap_chord_ratio, dsflap_dfcr, body_to_span_ratio_2, u1, vflap_2, u2, wled, sle, sflap, body_to_span_ratio, vflap, vstall, sqrt_eq_rpow]
  (apply hasDerivAt_of_eq; on_goal 1 => (repeat' comp_step))
  all_goals try comp_side
  all_goals try simp (disch := first | assumption | positivity) only [e0, div_mul_eq_div_div, div_half, inv_half]
  all_goals try simp only [mul_zero, zero_mul, add_zero, zero_add, sub_zero, zero_sub, mul_one, one_mul]
  all_goals try push_cast
  all_goals comp_eq

theorem d_wing_high_lift_mass__wing_taper_ratio (wing_num_flap_segments sea_level_density
    wing_high_lift_mass_coefficient wing_area wing_slat_chord_ratio wing_flap_chord_ratio
    wing_taper_ratio wing_flap_span_ratio wing_slat_span_ratio design_wing_loading
    wing_thickness_to_chord_root wing_span fuselage_avg_diameter wing_center_chord
    landing_lift_coefficient_max : ℝ) (h0 : 0 < sea_level_density) (h1 : 0 <
    landing_lift_coefficient_max) (h2 : 0 < design_wing_loading) (h3 : 0 < wing_taper_ratio) (h4 :
    0 < wing_thickness_to_chord_root) (h5 : 0 < wing_center_chord) (h6 : 0 < fuselage_avg_diameter
    - (wing_thickness_to_chord_root * wing_center_chord)) (h7 : 0 < wing_span) (h8 : 0 <
    wing_num_flap_segments) (h9 : 0 < wing_slat_chord_ratio) (h10 : 0 < wing_area) (h11 : 0 <
    wing_slat_span_ratio) (h12 : 0 < 2 - ((1 - wing_taper_ratio) * ((99 / 100) + (((2 * (sqrt
    ((wing_thickness_to_chord_root * wing_center_chord) * (fuselage_avg_diameter -
    (wing_thickness_to_chord_root * wing_center_chord))))) + (2 / 5)) / wing_span)))) (h13 : 0 < 2
    - ((1 - wing_taper_ratio) * ((99 / 100) + (((2 * (sqrt ((wing_thickness_to_chord_root *
    wing_center_chord) * (fuselage_avg_diameter - (wing_thickness_to_chord_root *
    wing_center_chord))))) + (2 / 5)) / wing_span)))) :
    HasDerivAt (fun t => out_wing_high_lift_mass wing_num_flap_segments sea_level_density wing_high_lift_mass_coefficient wing_area wing_slat_chord_ratio wing_flap_chord_ratio t wing_flap_span_ratio wing_slat_span_ratio design_wing_loading wing_thickness_to_chord_root wing_span fuselage_avg_diameter wing_center_chord landing_lift_coefficient_max) (J_wing_high_lift_mass__wing_taper_ratio wing_num_flap_segments sea_level_density wing_high_lift_mass_coefficient wing_area wing_slat_chord_ratio wing_flap_chord_ratio wing_taper_ratio wing_flap_span_ratio wing_slat_span_ratio design_wing_loading wing_thickness_to_chord_root wing_span fuselage_avg_diameter wing_center_chord landing_lift_coefficient_max) wing_taper_ratio := by
  have hf12 : 0 < 2 - ((1 - wing_taper_ratio) * ((99 / 100) + (body_to_span_ratio wing_thickness_to_chord_root wing_span fuselage_avg_diameter wing_center_chord))) := by simp only [dsle_dtr, sle_2, dsflap_dtr, body_to_span_ratio_2, u1, vflap_2, u2, wled, sle, sflap, body_to_span_ratio, vflap, vstall]; exact h12
  have hf13 : 0 < 2 - ((1 - wing_taper_ratio) * ((99 / 100) + (body_to_span_ratio_2 wing_thickness_to_chord_root wing_span fuselage_avg_diameter wing_center_chord))) := by simp only [dsle_dtr, sle_2, dsflap_dtr, body_to_span_ratio_2, u1, vflap_2, u2, wled, sle, sflap, body_to_span_ratio, vflap, vstall]; exact h13
  have hp0 : 0 < sle wing_area wing_slat_chord_ratio wing_taper_ratio wing_slat_span_ratio wing_thickness_to_chord_root wing_span fuselage_avg_diameter wing_center_chord := by simp only [dsle_dtr, sle_2, dsflap_dtr, body_to_span_ratio_2, u1, vflap_2, u2, wled, sle, sflap, body_to_span_ratio, vflap, vstall]; comp_side
  have hp1 : 0 < sle_2 wing_area wing_slat_chord_ratio wing_taper_ratio wing_slat_span_ratio wing_thickness_to_chord_root wing_span fuselage_avg_diameter wing_center_chord := by simp only [dsle_dtr, sle_2, dsflap_dtr, body_to_span_ratio_2, u1, vflap_2, u2, wled, sle, sflap, body_to_span_ratio, vflap, vstall]; comp_side
  have hp2 : 0 < u2 sea_level_density design_wing_loading landing_lift_coefficient_max := by simp only [dsle_dtr, sle_2, dsflap_dtr, body_to_span_ratio_2, u1, vflap_2, u2, wled, sle, sflap, body_to_span_ratio, vflap, vstall]; comp_side
  have hp3 : 0 < u1 wing_thickness_to_chord_root fuselage_avg_diameter wing_center_chord := by simp only [dsle_dtr, sle_2, dsflap_dtr, body_to_span_ratio_2, u1, vflap_2, u2, wled, sle, sflap, body_to_span_ratio, vflap, vstall]; comp_side
  have e0 : ∀ x : ℝ, 0 < x → x ^ ((113 / 100) : ℝ) = x ^ ((13 / 100) : ℝ) * x ^ 1 := fun x hx => rpow_up hx 1 (by norm_num)
  obtain ⟨D_sflap, hD_sflap, k_sflap⟩ : ∃ D : ℝ, D = (((-((wing_flap_chord_ratio * wing_area) / ((1 + wing_taper_ratio) ^ 2))) * (wing_flap_span_ratio - (body_to_span_ratio wing_thickness_to_chord_root wing_span fuselage_avg_diameter wing_center_chord))) * (2 - ((1 - wing_taper_ratio) * (wing_flap_span_ratio + (body_to_span_ratio wing_thickness_to_chord_root wing_span fuselage_avg_diameter wing_center_chord))))) + ((((wing_flap_chord_ratio * wing_area) / (1 + wing_taper_ratio)) * (wing_flap_span_ratio - (body_to_span_ratio wing_thickness_to_chord_root wing_span fuselage_avg_diameter wing_center_chord))) * (-((-1) * (wing_flap_span_ratio + (body_to_span_ratio wing_thickness_to_chord_root wing_span fuselage_avg_diameter wing_center_chord))))) ∧
      HasDerivAt (fun t => sflap wing_area wing_flap_chord_ratio t wing_flap_span_ratio wing_thickness_to_chord_root wing_span fuselage_avg_diameter wing_center_chord) D wing_taper_ratio := by
    refine ⟨_, rfl, ?_⟩
    simp only [sflap]
    apply hasDerivAt_of_eq; on_goal 1 => (repeat' comp_step)
    all_goals try first | comp_side | (apply HasDerivAt.continuousAt; (repeat' comp_step); all_goals comp_side)
    all_goals try simp (disch := first | assumption | positivity) only [e0, div_mul_eq_div_div, div_half, inv_half]
    all_goals try simp only [mul_zero, zero_mul, add_zero, zero_add, sub_zero, zero_sub, mul_one, one_mul, sub_self]
    all_goals try push_cast
    all_goals comp_eq
  obtain ⟨D_sle, hD_sle, k_sle⟩ : ∃ D : ℝ, D = (((-((wing_slat_chord_ratio * wing_area) / ((1 + wing_taper_ratio) ^ 2))) * wing_slat_span_ratio) * (2 - ((1 - wing_taper_ratio) * ((99 / 100) + (body_to_span_ratio wing_thickness_to_chord_root wing_span fuselage_avg_diameter wing_center_chord))))) + ((((wing_slat_chord_ratio * wing_area) / (1 + wing_taper_ratio)) * wing_slat_span_ratio) * (-((-1) * ((99 / 100) + (body_to_span_ratio wing_thickness_to_chord_root wing_span fuselage_avg_diameter wing_center_chord))))) ∧
      HasDerivAt (fun t => sle wing_area wing_slat_chord_ratio t wing_slat_span_ratio wing_thickness_to_chord_root wing_span fuselage_avg_diameter wing_center_chord) D wing_taper_ratio := by
    refine ⟨_, rfl, ?_⟩
    simp only [sle]
    apply hasDerivAt_of_eq; on_goal 1 => (repeat' comp_step)
    all_goals try first | comp_side | (apply HasDerivAt.continuousAt; (repeat' comp_step); all_goals comp_side)
    all_goals try simp (disch := first | assumption | positivity) only [e0, div_mul_eq_div_div, div_half, inv_half]
    all_goals try simp only [mul_zero, zero_mul, add_zero, zero_add, sub_zero, zero_sub, mul_one, one_mul, sub_self]
    all_goals try push_cast
    all_goals comp_eq
  obtain ⟨D_wled, hD_wled, k_wled⟩ : ∃ D : ℝ, D = (82 / 25) * (((113 / 100) * ((sle wing_area wing_slat_chord_ratio wing_taper_ratio wing_slat_span_ratio wing_thickness_to_chord_root wing_span fuselage_avg_diameter wing_center_chord) ^ ((13 / 100) : ℝ))) * D_sle) ∧
      HasDerivAt (fun t => wled wing_area wing_slat_chord_ratio t wing_slat_span_ratio wing_thickness_to_chord_root wing_span fuselage_avg_diameter wing_center_chord) D wing_taper_ratio := by
    refine ⟨_, rfl, ?_⟩
    simp only [wled]
    apply hasDerivAt_of_eq; on_goal 1 => (repeat' comp_step)
    all_goals try first | comp_side | (apply HasDerivAt.continuousAt; (repeat' comp_step); all_goals comp_side)
    all_goals try simp (disch := first | assumption | positivity) only [e0, div_mul_eq_div_div, div_half, inv_half]
    all_goals try simp only [mul_zero, zero_mul, add_zero, zero_add, sub_zero, zero_sub, mul_one, one_mul, sub_self]
    all_goals try push_cast
    all_goals comp_eq
  have al_sle_2 : sle_2 wing_area wing_slat_chord_ratio wing_taper_ratio wing_slat_span_ratio wing_thickness_to_chord_root wing_span fuselage_avg_diameter wing_center_chord = sle wing_area wing_slat_chord_ratio wing_taper_ratio wing_slat_span_ratio wing_thickness_to_chord_root wing_span fuselage_avg_diameter wing_center_chord := rfl
  have al_body_to_span_ratio_2 : body_to_span_ratio_2 wing_thickness_to_chord_root wing_span fuselage_avg_diameter wing_center_chord = body_to_span_ratio wing_thickness_to_chord_root wing_span fuselage_avg_diameter wing_center_chord := rfl
  have al_vflap_2 : vflap_2 sea_level_density design_wing_loading landing_lift_coefficient_max = vflap sea_level_density design_wing_loading landing_lift_coefficient_max := rfl
  try simp only [out_wing_high_lift_mass, J_wing_high_lift_mass__wing_taper_ratio, dsle_dtr, dsflap_dtr, u1, u2, al_sle_2, al_body_to_span_ratio_2, al_vflap_2]
  all_goals (apply hasDerivAt_of_eq; on_goal 1 => (repeat' comp_step))
  all_goals try first | comp_side | (apply HasDerivAt.continuousAt; (repeat' comp_step); all_goals comp_side)
  all_goals try simp only [hD_sflap, hD_sle, hD_wled]
  all_goals try simp (disch := first | assumption | positivity) only [e0, div_mul_eq_div_div, div_half, inv_half]
  all_goals try simp only [mul_zero, zero_mul, add_zero, zero_add, sub_zero, zero_sub, mul_one, one_mul, sub_self]
  all_goals try push_cast
  all_goals comp_eq

theorem d_wing_high_lift_mass__wing_flap_span_ratio (wing_num_flap_segments sea_level_density
    wing_high_lift_mass_coefficient wing_area wing_slat_chord_ratio wing_flap_chord_ratio
    wing_taper_ratio wing_flap_span_ratio wing_slat_span_ratio design_wing_loading
    wing_thickness_to_chord_root wing_span fuselage_avg_diameter wing_center_chord
    landing_lift_coefficient_max : ℝ) (h0 : 0 < sea_level_density) (h1 : 0 <
    landing_lift_coefficient_max) (h2 : 0 < design_wing_loading) (h3 : 0 < wing_taper_ratio) (h4 :
    0 < wing_thickness_to_chord_root) (h5 : 0 < wing_center_chord) (h6 : 0 < fuselage_avg_diameter
    - (wing_thickness_to_chord_root * wing_center_chord)) (h7 : 0 < wing_span) (h8 : 0 <
    wing_num_flap_segments) (h9 : 0 < wing_slat_chord_ratio) (h10 : 0 < wing_area) (h11 : 0 <
    wing_slat_span_ratio) (h12 : 0 < 2 - ((1 - wing_taper_ratio) * ((99 / 100) + (((2 * (sqrt
    ((wing_thickness_to_chord_root * wing_center_chord) * (fuselage_avg_diameter -
    (wing_thickness_to_chord_root * wing_center_chord))))) + (2 / 5)) / wing_span)))) :
    HasDerivAt (fun t => out_wing_high_lift_mass wing_num_flap_segments sea_level_density wing_high_lift_mass_coefficient wing_area wing_slat_chord_ratio wing_flap_chord_ratio wing_taper_ratio t wing_slat_span_ratio design_wing_loading wing_thickness_to_chord_root wing_span fuselage_avg_diameter wing_center_chord landing_lift_coefficient_max) (J_wing_high_lift_mass__wing_flap_span_ratio wing_num_flap_segments sea_level_density wing_high_lift_mass_coefficient wing_area wing_flap_chord_ratio wing_taper_ratio wing_flap_span_ratio design_wing_loading landing_lift_coefficient_max) wing_flap_span_ratio := by
  have e0 : ∀ x : ℝ, 0 < x → x ^ ((113 / 100) : ℝ) = x ^ ((13 / 100) : ℝ) * x ^ 1 := fun x hx => rpow_up hx 1 (by norm_num)
  simp only [out_wing_high_lift_mass, J_wing_high_lift_mass__wing_flap_span_ratio, dsflap_dfsr, vflap_2, u2, wled, sle, sflap, body_to_span_ratio, vflap, vstall, sqrt_eq_rpow]
  (apply hasDerivAt_of_eq; on_goal 1 => (repeat' comp_step))
  all_goals try comp_side
  all_goals try simp (disch := first | assumption | positivity) only [e0, div_mul_eq_div_div, div_half, inv_half]
  all_goals try simp only [mul_zero, zero_mul, add_zero, zero_add, sub_zero, zero_sub, mul_one, one_mul]
  all_goals try push_cast
  all_goals comp_eq

theorem d_wing_high_lift_mass__wing_slat_span_ratio (wing_num_flap_segments sea_level_density
    wing_high_lift_mass_coefficient wing_area wing_slat_chord_ratio wing_flap_chord_ratio
    wing_taper_ratio wing_flap_span_ratio wing_slat_span_ratio design_wing_loading
    wing_thickness_to_chord_root wing_span fuselage_avg_diameter wing_center_chord
    landing_lift_coefficient_max : ℝ) (h0 : 0 < sea_level_density) (h1 : 0 <
    landing_lift_coefficient_max) (h2 : 0 < design_wing_loading) (h3 : 0 < wing_taper_ratio) (h4 :
    0 < wing_thickness_to_chord_root) (h5 : 0 < wing_center_chord) (h6 : 0 < fuselage_avg_diameter
    - (wing_thickness_to_chord_root * wing_center_chord)) (h7 : 0 < wing_span) (h8 : 0 <
    wing_num_flap_segments) (h9 : 0 < wing_slat_chord_ratio) (h10 : 0 < wing_area) (h11 : 0 <
    wing_slat_span_ratio) (h12 : 0 < 2 - ((1 - wing_taper_ratio) * ((99 / 100) + (((2 * (sqrt
    ((wing_thickness_to_chord_root * wing_center_chord) * (fuselage_avg_diameter -
    (wing_thickness_to_chord_root * wing_center_chord))))) + (2 / 5)) / wing_span)))) (h13 : 0 < 2
    - ((1 - wing_taper_ratio) * ((99 / 100) + (((2 * (sqrt ((wing_thickness_to_chord_root *
    wing_center_chord) * (fuselage_avg_diameter - (wing_thickness_to_chord_root *
    wing_center_chord))))) + (2 / 5)) / wing_span)))) :
    HasDerivAt (fun t => out_wing_high_lift_mass wing_num_flap_segments sea_level_density wing_high_lift_mass_coefficient wing_area wing_slat_chord_ratio wing_flap_chord_ratio wing_taper_ratio wing_flap_span_ratio t design_wing_loading wing_thickness_to_chord_root wing_span fuselage_avg_diameter wing_center_chord landing_lift_coefficient_max) (J_wing_high_lift_mass__wing_slat_span_ratio wing_area wing_slat_chord_ratio wing_taper_ratio wing_slat_span_ratio wing_thickness_to_chord_root wing_span fuselage_avg_diameter wing_center_chord) wing_slat_span_ratio := by
  have hf12 : 0 < 2 - ((1 - wing_taper_ratio) * ((99 / 100) + (body_to_span_ratio wing_thickness_to_chord_root wing_span fuselage_avg_diameter wing_center_chord))) := by simp only [dsle_dssr, sle_2, body_to_span_ratio_2, u1, wled, sle, sflap, body_to_span_ratio, vflap, vstall]; exact h12
  have hf13 : 0 < 2 - ((1 - wing_taper_ratio) * ((99 / 100) + (body_to_span_ratio_2 wing_thickness_to_chord_root wing_span fuselage_avg_diameter wing_center_chord))) := by simp only [dsle_dssr, sle_2, body_to_span_ratio_2, u1, wled, sle, sflap, body_to_span_ratio, vflap, vstall]; exact h13
  have hp0 : 0 < sle wing_area wing_slat_chord_ratio wing_taper_ratio wing_slat_span_ratio wing_thickness_to_chord_root wing_span fuselage_avg_diameter wing_center_chord := by simp only [dsle_dssr, sle_2, body_to_span_ratio_2, u1, wled, sle, sflap, body_to_span_ratio, vflap, vstall]; comp_side
  have hp1 : 0 < sle_2 wing_area wing_slat_chord_ratio wing_taper_ratio wing_slat_span_ratio wing_thickness_to_chord_root wing_span fuselage_avg_diameter wing_center_chord := by simp only [dsle_dssr, sle_2, body_to_span_ratio_2, u1, wled, sle, sflap, body_to_span_ratio, vflap, vstall]; comp_side
  have hp2 : 0 < u1 wing_thickness_to_chord_root fuselage_avg_diameter wing_center_chord := by simp only [dsle_dssr, sle_2, body_to_span_ratio_2, u1, wled, sle, sflap, body_to_span_ratio, vflap, vstall]; comp_side
  have e0 : ∀ x : ℝ, 0 < x → x ^ ((113 / 100) : ℝ) = x ^ ((13 / 100) : ℝ) * x ^ 1 := fun x hx => rpow_up hx 1 (by norm_num)
  obtain ⟨D_sle, hD_sle, k_sle⟩ : ∃ D : ℝ, D = ((wing_slat_chord_ratio * wing_area) / (1 + wing_taper_ratio)) * (2 - ((1 - wing_taper_ratio) * ((99 / 100) + (body_to_span_ratio wing_thickness_to_chord_root wing_span fuselage_avg_diameter wing_center_chord)))) ∧
      HasDerivAt (fun t => sle wing_area wing_slat_chord_ratio wing_taper_ratio t wing_thickness_to_chord_root wing_span fuselage_avg_diameter wing_center_chord) D wing_slat_span_ratio := by
    refine ⟨_, rfl, ?_⟩
    simp only [sle]
    apply hasDerivAt_of_eq; on_goal 1 => (repeat' comp_step)
    all_goals try first | comp_side | (apply HasDerivAt.continuousAt; (repeat' comp_step); all_goals comp_side)
    all_goals try simp (disch := first | assumption | positivity) only [e0, div_mul_eq_div_div, div_half, inv_half]
    all_goals try simp only [mul_zero, zero_mul, add_zero, zero_add, sub_zero, zero_sub, mul_one, one_mul, sub_self]
    all_goals try push_cast
    all_goals comp_eq
  obtain ⟨D_wled, hD_wled, k_wled⟩ : ∃ D : ℝ, D = (82 / 25) * (((113 / 100) * ((sle wing_area wing_slat_chord_ratio wing_taper_ratio wing_slat_span_ratio wing_thickness_to_chord_root wing_span fuselage_avg_diameter wing_center_chord) ^ ((13 / 100) : ℝ))) * D_sle) ∧
      HasDerivAt (fun t => wled wing_area wing_slat_chord_ratio wing_taper_ratio t wing_thickness_to_chord_root wing_span fuselage_avg_diameter wing_center_chord) D wing_slat_span_ratio := by
    refine ⟨_, rfl, ?_⟩
    simp only [wled]
    apply hasDerivAt_of_eq; on_goal 1 => (repeat' comp_step)
    all_goals try first | comp_side | (apply HasDerivAt.continuousAt; (repeat' comp_step); all_goals comp_side)
    all_goals try simp (disch := first | assumption | positivity) only [e0, div_mul_eq_div_div, div_half, inv_half]
    all_goals try simp only [mul_zero, zero_mul, add_zero, zero_add, sub_zero, zero_sub, mul_one, one_mul, sub_self]
    all_goals try push_cast
    all_goals comp_eq
  have al_sle_2 : sle_2 wing_area wing_slat_chord_ratio wing_taper_ratio wing_slat_span_ratio wing_thickness_to_chord_root wing_span fuselage_avg_diameter wing_center_chord = sle wing_area wing_slat_chord_ratio wing_taper_ratio wing_slat_span_ratio wing_thickness_to_chord_root wing_span fuselage_avg_diameter wing_center_chord := rfl
  have al_body_to_span_ratio_2 : body_to_span_ratio_2 wing_thickness_to_chord_root wing_span fuselage_avg_diameter wing_center_chord = body_to_span_ratio wing_thickness_to_chord_root wing_span fuselage_avg_diameter wing_center_chord := rfl
  try simp only [out_wing_high_lift_mass, J_wing_high_lift_mass__wing_slat_span_ratio, dsle_dssr, u1, al_sle_2, al_body_to_span_ratio_2]
  all_goals (apply hasDerivAt_of_eq; on_goal 1 => (repeat' comp_step))
  all_goals try first | comp_side | (apply HasDerivAt.continuousAt; (repeat' comp_step); all_goals comp_side)
  all_goals try simp only [hD_sle, hD_wled]
  all_goals try simp (disch := first | assumption | positivity) only [e0, div_mul_eq_div_div, div_half, inv_half]
  all_goals try simp only [mul_zero, zero_mul, add_zero, zero_add, sub_zero, zero_sub, mul_one, one_mul, sub_self]
  all_goals try push_cast
  all_goals comp_eq

theorem d_wing_high_lift_mass__design_wing_loading (wing_num_flap_segments sea_level_density
    wing_high_lift_mass_coefficient wing_area wing_slat_chord_ratio wing_flap_chord_ratio
    wing_taper_ratio wing_flap_span_ratio wing_slat_span_ratio design_wing_loading
    wing_thickness_to_chord_root wing_span fuselage_avg_diameter wing_center_chord
    landing_lift_coefficient_max : ℝ) (h0 : 0 < sea_level_density) (h1 : 0 <
    landing_lift_coefficient_max) (h2 : 0 < design_wing_loading) (h3 : 0 < wing_taper_ratio) (h4 :
    0 < wing_thickness_to_chord_root) (h5 : 0 < wing_center_chord) (h6 : 0 < fuselage_avg_diameter
    - (wing_thickness_to_chord_root * wing_center_chord)) (h7 : 0 < wing_span) (h8 : 0 <
    wing_num_flap_segments) (h9 : 0 < wing_slat_chord_ratio) (h10 : 0 < wing_area) (h11 : 0 <
    wing_slat_span_ratio) (h12 : 0 < 2 - ((1 - wing_taper_ratio) * ((99 / 100) + (((2 * (sqrt
    ((wing_thickness_to_chord_root * wing_center_chord) * (fuselage_avg_diameter -
    (wing_thickness_to_chord_root * wing_center_chord))))) + (2 / 5)) / wing_span)))) :
    HasDerivAt (fun t => out_wing_high_lift_mass wing_num_flap_segments sea_level_density wing_high_lift_mass_coefficient wing_area wing_slat_chord_ratio wing_flap_chord_ratio wing_taper_ratio wing_flap_span_ratio wing_slat_span_ratio t wing_thickness_to_chord_root wing_span fuselage_avg_diameter wing_center_chord landing_lift_coefficient_max) (J_wing_high_lift_mass__design_wing_loading wing_num_flap_segments sea_level_density wing_high_lift_mass_coefficient wing_area wing_flap_chord_ratio wing_taper_ratio wing_flap_span_ratio design_wing_loading wing_thickness_to_chord_root wing_span fuselage_avg_diameter wing_center_chord landing_lift_coefficient_max) design_wing_loading := by
  have e0 : ∀ x : ℝ, 0 < x → x ^ ((113 / 100) : ℝ) = x ^ ((13 / 100) : ℝ) * x ^ 1 := fun x hx => rpow_up hx 1 (by norm_num)
  simp only [out_wing_high_lift_mass, J_wing_high_lift_mass__design_wing_loading, sflap_2, body_to_span_ratio_2, u1, dvflap_dwl, vflap_2, u2, wled, sle, sflap, body_to_span_ratio, vflap, vstall, sqrt_eq_rpow]
  (apply hasDerivAt_of_eq; on_goal 1 => (repeat' comp_step))
  all_goals try comp_side
  all_goals try simp (disch := first | assumption | positivity) only [e0, div_mul_eq_div_div, div_half, inv_half]
  all_goals try simp only [mul_zero, zero_mul, add_zero, zero_add, sub_zero, zero_sub, mul_one, one_mul]
  all_goals try push_cast
  all_goals comp_eq

theorem d_wing_high_lift_mass__wing_span (wing_num_flap_segments sea_level_density
    wing_high_lift_mass_coefficient wing_area wing_slat_chord_ratio wing_flap_chord_ratio
    wing_taper_ratio wing_flap_span_ratio wing_slat_span_ratio design_wing_loading
    wing_thickness_to_chord_root wing_span fuselage_avg_diameter wing_center_chord
    landing_lift_coefficient_max : ℝ) (h0 : 0 < sea_level_density) (h1 : 0 <
    landing_lift_coefficient_max) (h2 : 0 < design_wing_loading) (h3 : 0 < wing_taper_ratio) (h4 :
    0 < wing_thickness_to_chord_root) (h5 : 0 < wing_center_chord) (h6 : 0 < fuselage_avg_diameter
    - (wing_thickness_to_chord_root * wing_center_chord)) (h7 : 0 < wing_span) (h8 : 0 <
    wing_num_flap_segments) (h9 : 0 < wing_slat_chord_ratio) (h10 : 0 < wing_area) (h11 : 0 <
    wing_slat_span_ratio) (h12 : 0 < 2 - ((1 - wing_taper_ratio) * ((99 / 100) + (((2 * (sqrt
    ((wing_thickness_to_chord_root * wing_center_chord) * (fuselage_avg_diameter -
    (wing_thickness_to_chord_root * wing_center_chord))))) + (2 / 5)) / wing_span)))) (h13 : 0 < 2
    - ((1 - wing_taper_ratio) * ((99 / 100) + (((2 * (sqrt ((wing_thickness_to_chord_root *
    wing_center_chord) * (fuselage_avg_diameter - (wing_thickness_to_chord_root *
    wing_center_chord))))) + (2 / 5)) / wing_span)))) :
    HasDerivAt (fun t => out_wing_high_lift_mass wing_num_flap_segments sea_level_density wing_high_lift_mass_coefficient wing_area wing_slat_chord_ratio wing_flap_chord_ratio wing_taper_ratio wing_flap_span_ratio wing_slat_span_ratio design_wing_loading wing_thickness_to_chord_root t fuselage_avg_diameter wing_center_chord landing_lift_coefficient_max) (J_wing_high_lift_mass__wing_span wing_num_flap_segments sea_level_density wing_high_lift_mass_coefficient wing_area wing_slat_chord_ratio wing_flap_chord_ratio wing_taper_ratio wing_slat_span_ratio design_wing_loading wing_thickness_to_chord_root wing_span fuselage_avg_diameter wing_center_chord landing_lift_coefficient_max) wing_span := by
  have hf12 : 0 < 2 - ((1 - wing_taper_ratio) * ((99 / 100) + (body_to_span_ratio wing_thickness_to_chord_root wing_span fuselage_avg_diameter wing_center_chord))) := by simp only [dsle_dbtsr, sle_2, dbtsr_dwingspan, dsflap_dbtsr, body_to_span_ratio_2, u1, vflap_2, u2, wled, sle, sflap, body_to_span_ratio, vflap, vstall]; exact h12
  have hf13 : 0 < 2 - ((1 - wing_taper_ratio) * ((99 / 100) + (body_to_span_ratio_2 wing_thickness_to_chord_root wing_span fuselage_avg_diameter wing_center_chord))) := by simp only [dsle_dbtsr, sle_2, dbtsr_dwingspan, dsflap_dbtsr, body_to_span_ratio_2, u1, vflap_2, u2, wled, sle, sflap, body_to_span_ratio, vflap, vstall]; exact h13
  have hp0 : 0 < sle wing_area wing_slat_chord_ratio wing_taper_ratio wing_slat_span_ratio wing_thickness_to_chord_root wing_span fuselage_avg_diameter wing_center_chord := by simp only [dsle_dbtsr, sle_2, dbtsr_dwingspan, dsflap_dbtsr, body_to_span_ratio_2, u1, vflap_2, u2, wled, sle, sflap, body_to_span_ratio, vflap, vstall]; comp_side
  have hp1 : 0 < sle_2 wing_area wing_slat_chord_ratio wing_taper_ratio wing_slat_span_ratio wing_thickness_to_chord_root wing_span fuselage_avg_diameter wing_center_chord := by simp only [dsle_dbtsr, sle_2, dbtsr_dwingspan, dsflap_dbtsr, body_to_span_ratio_2, u1, vflap_2, u2, wled, sle, sflap, body_to_span_ratio, vflap, vstall]; comp_side
  have hp2 : 0 < u2 sea_level_density design_wing_loading landing_lift_coefficient_max := by simp only [dsle_dbtsr, sle_2, dbtsr_dwingspan, dsflap_dbtsr, body_to_span_ratio_2, u1, vflap_2, u2, wled, sle, sflap, body_to_span_ratio, vflap, vstall]; comp_side
  have hp3 : 0 < u1 wing_thickness_to_chord_root fuselage_avg_diameter wing_center_chord := by simp only [dsle_dbtsr, sle_2, dbtsr_dwingspan, dsflap_dbtsr, body_to_span_ratio_2, u1, vflap_2, u2, wled, sle, sflap, body_to_span_ratio, vflap, vstall]; comp_side
  have e0 : ∀ x : ℝ, 0 < x → x ^ ((113 / 100) : ℝ) = x ^ ((13 / 100) : ℝ) * x ^ 1 := fun x hx => rpow_up hx 1 (by norm_num)
  obtain ⟨D_body_to_span_ratio, hD_body_to_span_ratio, k_body_to_span_ratio⟩ : ∃ D : ℝ, D = -(((2 * (sqrt ((wing_thickness_to_chord_root * wing_center_chord) * (fuselage_avg_diameter - (wing_thickness_to_chord_root * wing_center_chord))))) + (2 / 5)) / (wing_span ^ 2)) ∧
      HasDerivAt (fun t => body_to_span_ratio wing_thickness_to_chord_root t fuselage_avg_diameter wing_center_chord) D wing_span := by
    refine ⟨_, rfl, ?_⟩
    simp only [body_to_span_ratio, sqrt_eq_rpow]
    apply hasDerivAt_of_eq; on_goal 1 => (repeat' comp_step)
    all_goals try first | comp_side | (apply HasDerivAt.continuousAt; (repeat' comp_step); all_goals comp_side)
    all_goals try simp (disch := first | assumption | positivity) only [e0, div_mul_eq_div_div, div_half, inv_half]
    all_goals try simp only [mul_zero, zero_mul, add_zero, zero_add, sub_zero, zero_sub, mul_one, one_mul, sub_self]
    all_goals try push_cast
    all_goals comp_eq
  obtain ⟨D_sflap, hD_sflap, k_sflap⟩ : ∃ D : ℝ, D = ((((wing_flap_chord_ratio * wing_area) / (1 + wing_taper_ratio)) * (-D_body_to_span_ratio)) * (2 - ((1 - wing_taper_ratio) * (wing_flap_span_ratio + (body_to_span_ratio wing_thickness_to_chord_root wing_span fuselage_avg_diameter wing_center_chord))))) + ((((wing_flap_chord_ratio * wing_area) / (1 + wing_taper_ratio)) * (wing_flap_span_ratio - (body_to_span_ratio wing_thickness_to_chord_root wing_span fuselage_avg_diameter wing_center_chord))) * (-((1 - wing_taper_ratio) * D_body_to_span_ratio))) ∧
      HasDerivAt (fun t => sflap wing_area wing_flap_chord_ratio wing_taper_ratio wing_flap_span_ratio wing_thickness_to_chord_root t fuselage_avg_diameter wing_center_chord) D wing_span := by
    refine ⟨_, rfl, ?_⟩
    simp only [sflap]
    apply hasDerivAt_of_eq; on_goal 1 => (repeat' comp_step)
    all_goals try first | comp_side | (apply HasDerivAt.continuousAt; (repeat' comp_step); all_goals comp_side)
    all_goals try simp (disch := first | assumption | positivity) only [e0, div_mul_eq_div_div, div_half, inv_half]
    all_goals try simp only [mul_zero, zero_mul, add_zero, zero_add, sub_zero, zero_sub, mul_one, one_mul, sub_self]
    all_goals try push_cast
    all_goals comp_eq
  obtain ⟨D_sle, hD_sle, k_sle⟩ : ∃ D : ℝ, D = (((wing_slat_chord_ratio * wing_area) / (1 + wing_taper_ratio)) * wing_slat_span_ratio) * (-((1 - wing_taper_ratio) * D_body_to_span_ratio)) ∧
      HasDerivAt (fun t => sle wing_area wing_slat_chord_ratio wing_taper_ratio wing_slat_span_ratio wing_thickness_to_chord_root t fuselage_avg_diameter wing_center_chord) D wing_span := by
    refine ⟨_, rfl, ?_⟩
    simp only [sle]
    apply hasDerivAt_of_eq; on_goal 1 => (repeat' comp_step)
    all_goals try first | comp_side | (apply HasDerivAt.continuousAt; (repeat' comp_step); all_goals comp_side)
    all_goals try simp (disch := first | assumption | positivity) only [e0, div_mul_eq_div_div, div_half, inv_half]
    all_goals try simp only [mul_zero, zero_mul, add_zero, zero_add, sub_zero, zero_sub, mul_one, one_mul, sub_self]
    all_goals try push_cast
    all_goals comp_eq
  obtain ⟨D_wled, hD_wled, k_wled⟩ : ∃ D : ℝ, D = (82 / 25) * (((113 / 100) * ((sle wing_area wing_slat_chord_ratio wing_taper_ratio wing_slat_span_ratio wing_thickness_to_chord_root wing_span fuselage_avg_diameter wing_center_chord) ^ ((13 / 100) : ℝ))) * D_sle) ∧
      HasDerivAt (fun t => wled wing_area wing_slat_chord_ratio wing_taper_ratio wing_slat_span_ratio wing_thickness_to_chord_root t fuselage_avg_diameter wing_center_chord) D wing_span := by
    refine ⟨_, rfl, ?_⟩
    simp only [wled]
    apply hasDerivAt_of_eq; on_goal 1 => (repeat' comp_step)
    all_goals try first | comp_side | (apply HasDerivAt.continuousAt; (repeat' comp_step); all_goals comp_side)
    all_goals try simp (disch := first | assumption | positivity) only [e0, div_mul_eq_div_div, div_half, inv_half]
    all_goals try simp only [mul_zero, zero_mul, add_zero, zero_add, sub_zero, zero_sub, mul_one, one_mul, sub_self]
    all_goals try push_cast
    all_goals comp_eq
  have al_sle_2 : sle_2 wing_area wing_slat_chord_ratio wing_taper_ratio wing_slat_span_ratio wing_thickness_to_chord_root wing_span fuselage_avg_diameter wing_center_chord = sle wing_area wing_slat_chord_ratio wing_taper_ratio wing_slat_span_ratio wing_thickness_to_chord_root wing_span fuselage_avg_diameter wing_center_chord := rfl
  have al_body_to_span_ratio_2 : body_to_span_ratio_2 wing_thickness_to_chord_root wing_span fuselage_avg_diameter wing_center_chord = body_to_span_ratio wing_thickness_to_chord_root wing_span fuselage_avg_diameter wing_center_chord := rfl
  have al_vflap_2 : vflap_2 sea_level_density design_wing_loading landing_lift_coefficient_max = vflap sea_level_density design_wing_loading landing_lift_coefficient_max := rfl
  try simp only [out_wing_high_lift_mass, J_wing_high_lift_mass__wing_span, dsle_dbtsr, dbtsr_dwingspan, dsflap_dbtsr, u1, u2, al_sle_2, al_body_to_span_ratio_2, al_vflap_2]
  all_goals (apply hasDerivAt_of_eq; on_goal 1 => (repeat' comp_step))
  all_goals try first | comp_side | (apply HasDerivAt.continuousAt; (repeat' comp_step); all_goals comp_side)
  all_goals try simp only [hD_body_to_span_ratio, hD_sflap, hD_sle, hD_wled]
  all_goals try simp only [dsle_dbtsr, sle_2, dbtsr_dwingspan, dsflap_dbtsr, body_to_span_ratio_2, u1, vflap_2, u2, wled, sle, sflap, body_to_span_ratio, vflap, vstall]
  all_goals try simp (disch := first | assumption | positivity) only [e0, div_mul_eq_div_div, div_half, inv_half]
  all_goals try simp only [mul_zero, zero_mul, add_zero, zero_add, sub_zero, zero_sub, mul_one, one_mul, sub_self]
  all_goals try push_cast
  all_goals comp_eq

theorem d_wing_high_lift_mass__landing_lift_coefficient_max (wing_num_flap_segments
    sea_level_density wing_high_lift_mass_coefficient wing_area wing_slat_chord_ratio
    wing_flap_chord_ratio wing_taper_ratio wing_flap_span_ratio wing_slat_span_ratio
    design_wing_loading wing_thickness_to_chord_root wing_span fuselage_avg_diameter
    wing_center_chord landing_lift_coefficient_max : ℝ) (h0 : 0 < sea_level_density) (h1 : 0 <
    landing_lift_coefficient_max) (h2 : 0 < design_wing_loading) (h3 : 0 < wing_taper_ratio) (h4 :
    0 < wing_thickness_to_chord_root) (h5 : 0 < wing_center_chord) (h6 : 0 < fuselage_avg_diameter
    - (wing_thickness_to_chord_root * wing_center_chord)) (h7 : 0 < wing_span) (h8 : 0 <
    wing_num_flap_segments) (h9 : 0 < wing_slat_chord_ratio) (h10 : 0 < wing_area) (h11 : 0 <
    wing_slat_span_ratio) (h12 : 0 < 2 - ((1 - wing_taper_ratio) * ((99 / 100) + (((2 * (sqrt
    ((wing_thickness_to_chord_root * wing_center_chord) * (fuselage_avg_diameter -
    (wing_thickness_to_chord_root * wing_center_chord))))) + (2 / 5)) / wing_span)))) :
    HasDerivAt (fun t => out_wing_high_lift_mass wing_num_flap_segments sea_level_density wing_high_lift_mass_coefficient wing_area wing_slat_chord_ratio wing_flap_chord_ratio wing_taper_ratio wing_flap_span_ratio wing_slat_span_ratio design_wing_loading wing_thickness_to_chord_root wing_span fuselage_avg_diameter wing_center_chord t) (J_wing_high_lift_mass__landing_lift_coefficient_max wing_num_flap_segments sea_level_density wing_high_lift_mass_coefficient wing_area wing_flap_chord_ratio wing_taper_ratio wing_flap_span_ratio design_wing_loading wing_thickness_to_chord_root wing_span fuselage_avg_diameter wing_center_chord landing_lift_coefficient_max) landing_lift_coefficient_max := by
  have e0 : ∀ x : ℝ, 0 < x → x ^ ((113 / 100) : ℝ) = x ^ ((13 / 100) : ℝ) * x ^ 1 := fun x hx => rpow_up hx 1 (by norm_num)
  simp only [out_wing_high_lift_mass, J_wing_high_lift_mass__landing_lift_coefficient_max, sflap_2, body_to_span_ratio_2, u1, dvflap_dcmfl, vflap_2, u2, wled, sle, sflap, body_to_span_ratio, vflap, vstall, sqrt_eq_rpow]
  (apply hasDerivAt_of_eq; on_goal 1 => (repeat' comp_step))
  all_goals try comp_side
  all_goals try simp (disch := first | assumption | positivity) only [e0, div_mul_eq_div_div, div_half, inv_half]
  all_goals try simp only [mul_zero, zero_mul, add_zero, zero_add, sub_zero, zero_sub, mul_one, one_mul]
  all_goals try push_cast
  all_goals comp_eq

/-- Partial derivatives of `HighLiftMass` that are proved correct (the rest is listed in the header). -/
theorem partials_partial (wing_num_flap_segments sea_level_density wing_high_lift_mass_coefficient
    wing_area wing_slat_chord_ratio wing_flap_chord_ratio wing_taper_ratio wing_flap_span_ratio
    wing_slat_span_ratio design_wing_loading wing_thickness_to_chord_root wing_span
    fuselage_avg_diameter wing_center_chord landing_lift_coefficient_max : ℝ) (h0 : 0 <
    wing_taper_ratio) (h1 : 0 < wing_thickness_to_chord_root) (h2 : 0 < wing_center_chord) (h3 : 0
    < fuselage_avg_diameter - (wing_thickness_to_chord_root * wing_center_chord)) (h4 : 0 <
    wing_span) (h5 : 0 < wing_slat_chord_ratio) (h6 : 0 < wing_area) (h7 : 0 <
    wing_slat_span_ratio) (h8 : 0 < 2 - ((1 - wing_taper_ratio) * ((99 / 100) + (((2 * (sqrt
    ((wing_thickness_to_chord_root * wing_center_chord) * (fuselage_avg_diameter -
    (wing_thickness_to_chord_root * wing_center_chord))))) + (2 / 5)) / wing_span)))) (h9 : 0 <
    sea_level_density) (h10 : 0 < landing_lift_coefficient_max) (h11 : 0 < design_wing_loading)
    (h12 : 0 < wing_num_flap_segments) :
    HasDerivAt (fun t => out_slat_mass t wing_slat_chord_ratio wing_taper_ratio wing_slat_span_ratio
      wing_thickness_to_chord_root wing_span fuselage_avg_diameter wing_center_chord)
      (J_slat_mass__wing_area wing_area wing_slat_chord_ratio wing_taper_ratio
      wing_slat_span_ratio wing_thickness_to_chord_root wing_span fuselage_avg_diameter
      wing_center_chord) wing_area ∧
    HasDerivAt (fun t => out_slat_mass wing_area t wing_taper_ratio wing_slat_span_ratio
      wing_thickness_to_chord_root wing_span fuselage_avg_diameter wing_center_chord)
      (J_slat_mass__wing_slat_chord_ratio wing_area wing_slat_chord_ratio wing_taper_ratio
      wing_slat_span_ratio wing_thickness_to_chord_root wing_span fuselage_avg_diameter
      wing_center_chord) wing_slat_chord_ratio ∧
    HasDerivAt (fun t => out_slat_mass wing_area wing_slat_chord_ratio t wing_slat_span_ratio
      wing_thickness_to_chord_root wing_span fuselage_avg_diameter wing_center_chord)
      (J_slat_mass__wing_taper_ratio wing_area wing_slat_chord_ratio wing_taper_ratio
      wing_slat_span_ratio wing_thickness_to_chord_root wing_span fuselage_avg_diameter
      wing_center_chord) wing_taper_ratio ∧
    HasDerivAt (fun t => out_slat_mass wing_area wing_slat_chord_ratio wing_taper_ratio t
      wing_thickness_to_chord_root wing_span fuselage_avg_diameter wing_center_chord)
      (J_slat_mass__wing_slat_span_ratio wing_area wing_slat_chord_ratio wing_taper_ratio
      wing_slat_span_ratio wing_thickness_to_chord_root wing_span fuselage_avg_diameter
      wing_center_chord) wing_slat_span_ratio ∧
    HasDerivAt (fun t => out_slat_mass wing_area wing_slat_chord_ratio wing_taper_ratio
      wing_slat_span_ratio wing_thickness_to_chord_root t fuselage_avg_diameter wing_center_chord)
      (J_slat_mass__wing_span wing_area wing_slat_chord_ratio wing_taper_ratio
      wing_slat_span_ratio wing_thickness_to_chord_root wing_span fuselage_avg_diameter
      wing_center_chord) wing_span ∧
    HasDerivAt (fun t => out_flap_mass wing_num_flap_segments sea_level_density t wing_area
      wing_flap_chord_ratio wing_taper_ratio wing_flap_span_ratio design_wing_loading
      wing_thickness_to_chord_root wing_span fuselage_avg_diameter wing_center_chord
      landing_lift_coefficient_max) (J_flap_mass__wing_high_lift_mass_coefficient
      wing_num_flap_segments sea_level_density wing_area wing_flap_chord_ratio wing_taper_ratio
      wing_flap_span_ratio design_wing_loading wing_thickness_to_chord_root wing_span
      fuselage_avg_diameter wing_center_chord landing_lift_coefficient_max)
      wing_high_lift_mass_coefficient ∧
    HasDerivAt (fun t => out_flap_mass wing_num_flap_segments sea_level_density
      wing_high_lift_mass_coefficient t wing_flap_chord_ratio wing_taper_ratio
      wing_flap_span_ratio design_wing_loading wing_thickness_to_chord_root wing_span
      fuselage_avg_diameter wing_center_chord landing_lift_coefficient_max)
      (J_flap_mass__wing_area wing_num_flap_segments sea_level_density
      wing_high_lift_mass_coefficient wing_flap_chord_ratio wing_taper_ratio wing_flap_span_ratio
      design_wing_loading wing_thickness_to_chord_root wing_span fuselage_avg_diameter
      wing_center_chord landing_lift_coefficient_max) wing_area ∧
    HasDerivAt (fun t => out_flap_mass wing_num_flap_segments sea_level_density
      wing_high_lift_mass_coefficient wing_area t wing_taper_ratio wing_flap_span_ratio
      design_wing_loading wing_thickness_to_chord_root wing_span fuselage_avg_diameter
      wing_center_chord landing_lift_coefficient_max) (J_flap_mass__wing_flap_chord_ratio
      wing_num_flap_segments sea_level_density wing_high_lift_mass_coefficient wing_area
      wing_taper_ratio wing_flap_span_ratio design_wing_loading wing_thickness_to_chord_root
      wing_span fuselage_avg_diameter wing_center_chord landing_lift_coefficient_max)
      wing_flap_chord_ratio ∧
    HasDerivAt (fun t => out_flap_mass wing_num_flap_segments sea_level_density
      wing_high_lift_mass_coefficient wing_area wing_flap_chord_ratio t wing_flap_span_ratio
      design_wing_loading wing_thickness_to_chord_root wing_span fuselage_avg_diameter
      wing_center_chord landing_lift_coefficient_max) (J_flap_mass__wing_taper_ratio
      wing_num_flap_segments sea_level_density wing_high_lift_mass_coefficient wing_area
      wing_flap_chord_ratio wing_taper_ratio wing_flap_span_ratio design_wing_loading
      wing_thickness_to_chord_root wing_span fuselage_avg_diameter wing_center_chord
      landing_lift_coefficient_max) wing_taper_ratio ∧
    HasDerivAt (fun t => out_flap_mass wing_num_flap_segments sea_level_density
      wing_high_lift_mass_coefficient wing_area wing_flap_chord_ratio wing_taper_ratio t
      design_wing_loading wing_thickness_to_chord_root wing_span fuselage_avg_diameter
      wing_center_chord landing_lift_coefficient_max) (J_flap_mass__wing_flap_span_ratio
      wing_num_flap_segments sea_level_density wing_high_lift_mass_coefficient wing_area
      wing_flap_chord_ratio wing_taper_ratio wing_flap_span_ratio design_wing_loading
      landing_lift_coefficient_max) wing_flap_span_ratio ∧
    HasDerivAt (fun t => out_flap_mass wing_num_flap_segments sea_level_density
      wing_high_lift_mass_coefficient wing_area wing_flap_chord_ratio wing_taper_ratio
      wing_flap_span_ratio t wing_thickness_to_chord_root wing_span fuselage_avg_diameter
      wing_center_chord landing_lift_coefficient_max) (J_flap_mass__design_wing_loading
      wing_num_flap_segments sea_level_density wing_high_lift_mass_coefficient wing_area
      wing_flap_chord_ratio wing_taper_ratio wing_flap_span_ratio design_wing_loading
      wing_thickness_to_chord_root wing_span fuselage_avg_diameter wing_center_chord
      landing_lift_coefficient_max) design_wing_loading ∧
    HasDerivAt (fun t => out_flap_mass wing_num_flap_segments sea_level_density
      wing_high_lift_mass_coefficient wing_area wing_flap_chord_ratio wing_taper_ratio
      wing_flap_span_ratio design_wing_loading t wing_span fuselage_avg_diameter wing_center_chord
      landing_lift_coefficient_max) (J_flap_mass__wing_thickness_to_chord_root
      wing_num_flap_segments sea_level_density wing_high_lift_mass_coefficient wing_area
      wing_flap_chord_ratio wing_taper_ratio design_wing_loading wing_thickness_to_chord_root
      wing_span fuselage_avg_diameter wing_center_chord landing_lift_coefficient_max)
      wing_thickness_to_chord_root ∧
    HasDerivAt (fun t => out_flap_mass wing_num_flap_segments sea_level_density
      wing_high_lift_mass_coefficient wing_area wing_flap_chord_ratio wing_taper_ratio
      wing_flap_span_ratio design_wing_loading wing_thickness_to_chord_root t
      fuselage_avg_diameter wing_center_chord landing_lift_coefficient_max)
      (J_flap_mass__wing_span wing_num_flap_segments sea_level_density
      wing_high_lift_mass_coefficient wing_area wing_flap_chord_ratio wing_taper_ratio
      design_wing_loading wing_thickness_to_chord_root wing_span fuselage_avg_diameter
      wing_center_chord landing_lift_coefficient_max) wing_span ∧
    HasDerivAt (fun t => out_flap_mass wing_num_flap_segments sea_level_density
      wing_high_lift_mass_coefficient wing_area wing_flap_chord_ratio wing_taper_ratio
      wing_flap_span_ratio design_wing_loading wing_thickness_to_chord_root wing_span t
      wing_center_chord landing_lift_coefficient_max) (J_flap_mass__fuselage_avg_diameter
      wing_num_flap_segments sea_level_density wing_high_lift_mass_coefficient wing_area
      wing_flap_chord_ratio wing_taper_ratio design_wing_loading wing_thickness_to_chord_root
      wing_span fuselage_avg_diameter wing_center_chord landing_lift_coefficient_max)
      fuselage_avg_diameter ∧
    HasDerivAt (fun t => out_flap_mass wing_num_flap_segments sea_level_density
      wing_high_lift_mass_coefficient wing_area wing_flap_chord_ratio wing_taper_ratio
      wing_flap_span_ratio design_wing_loading wing_thickness_to_chord_root wing_span
      fuselage_avg_diameter t landing_lift_coefficient_max) (J_flap_mass__wing_center_chord
      wing_num_flap_segments sea_level_density wing_high_lift_mass_coefficient wing_area
      wing_flap_chord_ratio wing_taper_ratio design_wing_loading wing_thickness_to_chord_root
      wing_span fuselage_avg_diameter wing_center_chord landing_lift_coefficient_max)
      wing_center_chord ∧
    HasDerivAt (fun t => out_flap_mass wing_num_flap_segments sea_level_density
      wing_high_lift_mass_coefficient wing_area wing_flap_chord_ratio wing_taper_ratio
      wing_flap_span_ratio design_wing_loading wing_thickness_to_chord_root wing_span
      fuselage_avg_diameter wing_center_chord t) (J_flap_mass__landing_lift_coefficient_max
      wing_num_flap_segments sea_level_density wing_high_lift_mass_coefficient wing_area
      wing_flap_chord_ratio wing_taper_ratio wing_flap_span_ratio design_wing_loading
      wing_thickness_to_chord_root wing_span fuselage_avg_diameter wing_center_chord
      landing_lift_coefficient_max) landing_lift_coefficient_max ∧
    HasDerivAt (fun t => out_wing_high_lift_mass wing_num_flap_segments sea_level_density t wing_area
      wing_slat_chord_ratio wing_flap_chord_ratio wing_taper_ratio wing_flap_span_ratio
      wing_slat_span_ratio design_wing_loading wing_thickness_to_chord_root wing_span
      fuselage_avg_diameter wing_center_chord landing_lift_coefficient_max)
      (J_wing_high_lift_mass__wing_high_lift_mass_coefficient wing_num_flap_segments
      sea_level_density wing_area wing_flap_chord_ratio wing_taper_ratio wing_flap_span_ratio
      design_wing_loading wing_thickness_to_chord_root wing_span fuselage_avg_diameter
      wing_center_chord landing_lift_coefficient_max) wing_high_lift_mass_coefficient ∧
    HasDerivAt (fun t => out_wing_high_lift_mass wing_num_flap_segments sea_level_density
      wing_high_lift_mass_coefficient t wing_slat_chord_ratio wing_flap_chord_ratio
      wing_taper_ratio wing_flap_span_ratio wing_slat_span_ratio design_wing_loading
      wing_thickness_to_chord_root wing_span fuselage_avg_diameter wing_center_chord
      landing_lift_coefficient_max) (J_wing_high_lift_mass__wing_area wing_num_flap_segments
      sea_level_density wing_high_lift_mass_coefficient wing_area wing_slat_chord_ratio
      wing_flap_chord_ratio wing_taper_ratio wing_flap_span_ratio wing_slat_span_ratio
      design_wing_loading wing_thickness_to_chord_root wing_span fuselage_avg_diameter
      wing_center_chord landing_lift_coefficient_max) wing_area ∧
    HasDerivAt (fun t => out_wing_high_lift_mass wing_num_flap_segments sea_level_density
      wing_high_lift_mass_coefficient wing_area t wing_flap_chord_ratio wing_taper_ratio
      wing_flap_span_ratio wing_slat_span_ratio design_wing_loading wing_thickness_to_chord_root
      wing_span fuselage_avg_diameter wing_center_chord landing_lift_coefficient_max)
      (J_wing_high_lift_mass__wing_slat_chord_ratio wing_area wing_slat_chord_ratio
      wing_taper_ratio wing_slat_span_ratio wing_thickness_to_chord_root wing_span
      fuselage_avg_diameter wing_center_chord) wing_slat_chord_ratio ∧
    HasDerivAt (fun t => out_wing_high_lift_mass wing_num_flap_segments sea_level_density
      wing_high_lift_mass_coefficient wing_area wing_slat_chord_ratio t wing_taper_ratio
      wing_flap_span_ratio wing_slat_span_ratio design_wing_loading wing_thickness_to_chord_root
      wing_span fuselage_avg_diameter wing_center_chord landing_lift_coefficient_max)
      (J_wing_high_lift_mass__wing_flap_chord_ratio wing_num_flap_segments sea_level_density
      wing_high_lift_mass_coefficient wing_area wing_taper_ratio wing_flap_span_ratio
      design_wing_loading wing_thickness_to_chord_root wing_span fuselage_avg_diameter
      wing_center_chord landing_lift_coefficient_max) wing_flap_chord_ratio ∧
    HasDerivAt (fun t => out_wing_high_lift_mass wing_num_flap_segments sea_level_density
      wing_high_lift_mass_coefficient wing_area wing_slat_chord_ratio wing_flap_chord_ratio t
      wing_flap_span_ratio wing_slat_span_ratio design_wing_loading wing_thickness_to_chord_root
      wing_span fuselage_avg_diameter wing_center_chord landing_lift_coefficient_max)
      (J_wing_high_lift_mass__wing_taper_ratio wing_num_flap_segments sea_level_density
      wing_high_lift_mass_coefficient wing_area wing_slat_chord_ratio wing_flap_chord_ratio
      wing_taper_ratio wing_flap_span_ratio wing_slat_span_ratio design_wing_loading
      wing_thickness_to_chord_root wing_span fuselage_avg_diameter wing_center_chord
      landing_lift_coefficient_max) wing_taper_ratio ∧
    HasDerivAt (fun t => out_wing_high_lift_mass wing_num_flap_segments sea_level_density
      wing_high_lift_mass_coefficient wing_area wing_slat_chord_ratio wing_flap_chord_ratio
      wing_taper_ratio t wing_slat_span_ratio design_wing_loading wing_thickness_to_chord_root
      wing_span fuselage_avg_diameter wing_center_chord landing_lift_coefficient_max)
      (J_wing_high_lift_mass__wing_flap_span_ratio wing_num_flap_segments sea_level_density
      wing_high_lift_mass_coefficient wing_area wing_flap_chord_ratio wing_taper_ratio
      wing_flap_span_ratio design_wing_loading landing_lift_coefficient_max) wing_flap_span_ratio ∧
    HasDerivAt (fun t => out_wing_high_lift_mass wing_num_flap_segments sea_level_density
      wing_high_lift_mass_coefficient wing_area wing_slat_chord_ratio wing_flap_chord_ratio
      wing_taper_ratio wing_flap_span_ratio t design_wing_loading wing_thickness_to_chord_root
      wing_span fuselage_avg_diameter wing_center_chord landing_lift_coefficient_max)
      (J_wing_high_lift_mass__wing_slat_span_ratio wing_area wing_slat_chord_ratio
      wing_taper_ratio wing_slat_span_ratio wing_thickness_to_chord_root wing_span
      fuselage_avg_diameter wing_center_chord) wing_slat_span_ratio ∧
    HasDerivAt (fun t => out_wing_high_lift_mass wing_num_flap_segments sea_level_density
      wing_high_lift_mass_coefficient wing_area wing_slat_chord_ratio wing_flap_chord_ratio
      wing_taper_ratio wing_flap_span_ratio wing_slat_span_ratio t wing_thickness_to_chord_root
      wing_span fuselage_avg_diameter wing_center_chord landing_lift_coefficient_max)
      (J_wing_high_lift_mass__design_wing_loading wing_num_flap_segments sea_level_density
      wing_high_lift_mass_coefficient wing_area wing_flap_chord_ratio wing_taper_ratio
      wing_flap_span_ratio design_wing_loading wing_thickness_to_chord_root wing_span
      fuselage_avg_diameter wing_center_chord landing_lift_coefficient_max) design_wing_loading ∧
    HasDerivAt (fun t => out_wing_high_lift_mass wing_num_flap_segments sea_level_density
      wing_high_lift_mass_coefficient wing_area wing_slat_chord_ratio wing_flap_chord_ratio
      wing_taper_ratio wing_flap_span_ratio wing_slat_span_ratio design_wing_loading
      wing_thickness_to_chord_root t fuselage_avg_diameter wing_center_chord
      landing_lift_coefficient_max) (J_wing_high_lift_mass__wing_span wing_num_flap_segments
      sea_level_density wing_high_lift_mass_coefficient wing_area wing_slat_chord_ratio
      wing_flap_chord_ratio wing_taper_ratio wing_slat_span_ratio design_wing_loading
      wing_thickness_to_chord_root wing_span fuselage_avg_diameter wing_center_chord
      landing_lift_coefficient_max) wing_span ∧
    HasDerivAt (fun t => out_wing_high_lift_mass wing_num_flap_segments sea_level_density
      wing_high_lift_mass_coefficient wing_area wing_slat_chord_ratio wing_flap_chord_ratio
      wing_taper_ratio wing_flap_span_ratio wing_slat_span_ratio design_wing_loading
      wing_thickness_to_chord_root wing_span fuselage_avg_diameter wing_center_chord t)
      (J_wing_high_lift_mass__landing_lift_coefficient_max wing_num_flap_segments
      sea_level_density wing_high_lift_mass_coefficient wing_area wing_flap_chord_ratio
      wing_taper_ratio wing_flap_span_ratio design_wing_loading wing_thickness_to_chord_root
      wing_span fuselage_avg_diameter wing_center_chord landing_lift_coefficient_max)
      landing_lift_coefficient_max :=
  ⟨d_slat_mass__wing_area _ _ _ _ _ _ _ _ h0 h1 h2 h3 h4 h5 h6 h7 h8 h8,
    d_slat_mass__wing_slat_chord_ratio _ _ _ _ _ _ _ _ h0 h1 h2 h3 h4 h5 h6 h7 h8 h8,
    d_slat_mass__wing_taper_ratio _ _ _ _ _ _ _ _ h0 h1 h2 h3 h4 h5 h6 h7 h8 h8,
    d_slat_mass__wing_slat_span_ratio _ _ _ _ _ _ _ _ h0 h1 h2 h3 h4 h5 h6 h7 h8 h8,
    d_slat_mass__wing_span _ _ _ _ _ _ _ _ h0 h1 h2 h3 h4 h5 h6 h7 h8 h8,
    d_flap_mass__wing_high_lift_mass_coefficient _ _ _ _ _ _ _ _ _ _ _ _ _ h9 h10 h11 h0 h1 h2 h3
    h4 h12, d_flap_mass__wing_area _ _ _ _ _ _ _ _ _ _ _ _ _ h9 h10 h11 h0 h1 h2 h3 h4 h12,
    d_flap_mass__wing_flap_chord_ratio _ _ _ _ _ _ _ _ _ _ _ _ _ h9 h10 h11 h0 h1 h2 h3 h4 h12,
    d_flap_mass__wing_taper_ratio _ _ _ _ _ _ _ _ _ _ _ _ _ h9 h10 h11 h0 h1 h2 h3 h4 h12,
    d_flap_mass__wing_flap_span_ratio _ _ _ _ _ _ _ _ _ _ _ _ _ h9 h10 h11 h0 h1 h2 h3 h4 h12,
    d_flap_mass__design_wing_loading _ _ _ _ _ _ _ _ _ _ _ _ _ h9 h10 h11 h0 h1 h2 h3 h4 h12,
    d_flap_mass__wing_thickness_to_chord_root _ _ _ _ _ _ _ _ _ _ _ _ _ h9 h10 h11 h0 h1 h2 h3 h4
    h12, d_flap_mass__wing_span _ _ _ _ _ _ _ _ _ _ _ _ _ h9 h10 h11 h0 h1 h2 h3 h4 h12,
    d_flap_mass__fuselage_avg_diameter _ _ _ _ _ _ _ _ _ _ _ _ _ h9 h10 h11 h0 h1 h2 h3 h4 h12,
    d_flap_mass__wing_center_chord _ _ _ _ _ _ _ _ _ _ _ _ _ h9 h10 h11 h0 h1 h2 h3 h4 h12,
    d_flap_mass__landing_lift_coefficient_max _ _ _ _ _ _ _ _ _ _ _ _ _ h9 h10 h11 h0 h1 h2 h3 h4
    h12, d_wing_high_lift_mass__wing_high_lift_mass_coefficient _ _ _ _ _ _ _ _ _ _ _ _ _ _ _ h9
    h10 h11 h0 h1 h2 h3 h4 h12 h5 h6 h7 h8, d_wing_high_lift_mass__wing_area _ _ _ _ _ _ _ _ _ _ _
    _ _ _ _ h9 h10 h11 h0 h1 h2 h3 h4 h12 h5 h6 h7 h8 h8,
    d_wing_high_lift_mass__wing_slat_chord_ratio _ _ _ _ _ _ _ _ _ _ _ _ _ _ _ h9 h10 h11 h0 h1 h2
    h3 h4 h12 h5 h6 h7 h8 h8, d_wing_high_lift_mass__wing_flap_chord_ratio _ _ _ _ _ _ _ _ _ _ _ _
    _ _ _ h9 h10 h11 h0 h1 h2 h3 h4 h12 h5 h6 h7 h8, d_wing_high_lift_mass__wing_taper_ratio _ _ _
    _ _ _ _ _ _ _ _ _ _ _ _ h9 h10 h11 h0 h1 h2 h3 h4 h12 h5 h6 h7 h8 h8,
    d_wing_high_lift_mass__wing_flap_span_ratio _ _ _ _ _ _ _ _ _ _ _ _ _ _ _ h9 h10 h11 h0 h1 h2
    h3 h4 h12 h5 h6 h7 h8, d_wing_high_lift_mass__wing_slat_span_ratio _ _ _ _ _ _ _ _ _ _ _ _ _ _
    _ h9 h10 h11 h0 h1 h2 h3 h4 h12 h5 h6 h7 h8 h8, d_wing_high_lift_mass__design_wing_loading _ _
    _ _ _ _ _ _ _ _ _ _ _ _ _ h9 h10 h11 h0 h1 h2 h3 h4 h12 h5 h6 h7 h8,
    d_wing_high_lift_mass__wing_span _ _ _ _ _ _ _ _ _ _ _ _ _ _ _ h9 h10 h11 h0 h1 h2 h3 h4 h12
    h5 h6 h7 h8 h8, d_wing_high_lift_mass__landing_lift_coefficient_max _ _ _ _ _ _ _ _ _ _ _ _ _
    _ _ h9 h10 h11 h0 h1 h2 h3 h4 h12 h5 h6 h7 h8⟩

example : ∃ wing_num_flap_segments sea_level_density wing_high_lift_mass_coefficient wing_area
      wing_slat_chord_ratio wing_flap_chord_ratio wing_taper_ratio wing_flap_span_ratio
      wing_slat_span_ratio design_wing_loading wing_thickness_to_chord_root wing_span
      fuselage_avg_diameter wing_center_chord landing_lift_coefficient_max : ℝ,
      0 < wing_taper_ratio ∧
      0 < wing_thickness_to_chord_root ∧
      0 < wing_center_chord ∧
      0 < fuselage_avg_diameter - (wing_thickness_to_chord_root * wing_center_chord) ∧
      0 < wing_span ∧
      0 < wing_slat_chord_ratio ∧
      0 < wing_area ∧
      0 < wing_slat_span_ratio ∧
      0 < 2 - ((1 - wing_taper_ratio) * ((99 / 100) + (((2 * (sqrt ((wing_thickness_to_chord_root *
        wing_center_chord) * (fuselage_avg_diameter - (wing_thickness_to_chord_root *
        wing_center_chord))))) + (2 / 5)) / wing_span))) ∧
      0 < sea_level_density ∧
      0 < landing_lift_coefficient_max ∧
      0 < design_wing_loading ∧
      0 < wing_num_flap_segments :=
  ⟨1, 1, 0, 2, 1, 2, 2, 1, 1, 1, 1, 1, 2, 1, 1, by comp_example, by comp_example, by comp_example,
    by comp_example, by comp_example, by comp_example, by comp_example, by comp_example, by
    comp_example, by comp_example, by comp_example, by comp_example, by comp_example⟩

end Verif.Comp.MassGaspBasedFixed.HighLiftMass_singleslotted

