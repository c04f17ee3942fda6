import Verif.Lemmas.CompDeriv

/-! # Partial derivatives of the components of `aviary/subsystems/mass/flops_based/fuselage.py`

One node of a vector component is modelled over the real numbers.  Each option that selects a
branch is fixed, one namespace per choice.  `out_x` is the output `x`, `J_x__y` the entry that
`compute_partials` (or `declare_partials` with `val`) assigns, `d_x__y` the proof that the entry is
the derivative.  Inputs an output does not take as argument have no influence on it.

* `BWBAftBodyMass_brief`: line 265: raise branch excluded

* `BWBAftBodyMass_otherverbosity`: line 265: raise branch excluded

* `BWBFuselageMass`: line 176: raise branch excluded -/

set_option linter.all false

namespace Verif.Comp.MassFlopsBasedFuselage.AltFuselageMass
open Real

/-- aviary/subsystems/mass/flops_based/fuselage.py:119 -/
noncomputable def fuse_height_fact (fuselage_max_height : ℝ) : ℝ :=
  fuselage_max_height ^ ((221 / 1000) : ℝ)

/-- aviary/subsystems/mass/flops_based/fuselage.py:120 -/
noncomputable def fuse_width_fact (fuselage_max_width : ℝ) : ℝ :=
  fuselage_max_width ^ ((221 / 1000) : ℝ)

/-- aviary/subsystems/mass/flops_based/fuselage.py:121 -/
noncomputable def total_fact (fuselage_max_height fuselage_max_width : ℝ) : ℝ :=
  (fuse_height_fact fuselage_max_height) / (fuse_width_fact fuselage_max_width)

/-- Output `fuselage_mass` of `AltFuselageMass.compute`, aviary/subsystems/mass/flops_based/fuselage.py:106 -/
noncomputable def out_fuselage_mass (fuselage_mass_scaler fuselage_wetted_area fuselage_max_height fuselage_max_width : ℝ) : ℝ :=
  (((3939 / 1000) * fuselage_wetted_area) / ((fuselage_max_height / fuselage_max_width) ^ ((221
    / 1000) : ℝ))) * fuselage_mass_scaler

/-- Partial of `fuselage_mass` with respect to `fuselage_mass_scaler` as set by `AltFuselageMass`, aviary/subsystems/mass/flops_based/fuselage.py:123 -/
noncomputable def J_fuselage_mass__fuselage_mass_scaler (fuselage_wetted_area fuselage_max_height fuselage_max_width : ℝ) : ℝ :=
  ((3939 / 1000) * fuselage_wetted_area) / (total_fact fuselage_max_height fuselage_max_width)

/-- Partial of `fuselage_mass` with respect to `fuselage_wetted_area` as set by `AltFuselageMass`, aviary/subsystems/mass/flops_based/fuselage.py:127 -/
noncomputable def J_fuselage_mass__fuselage_wetted_area (fuselage_mass_scaler fuselage_max_height fuselage_max_width : ℝ) : ℝ :=
  ((3939 / 1000) / (total_fact fuselage_max_height fuselage_max_width)) * fuselage_mass_scaler

/-- Partial of `fuselage_mass` with respect to `fuselage_max_height` as set by `AltFuselageMass`, aviary/subsystems/mass/flops_based/fuselage.py:131 -/
noncomputable def J_fuselage_mass__fuselage_max_height (fuselage_mass_scaler fuselage_wetted_area fuselage_max_height fuselage_max_width : ℝ) : ℝ :=
  ((((-(870519 / 1000000)) * fuselage_wetted_area) * (fuse_width_fact fuselage_max_width)) *
    (fuselage_max_height ^ ((-(1221 / 1000)) : ℝ))) * fuselage_mass_scaler

/-- Partial of `fuselage_mass` with respect to `fuselage_max_width` as set by `AltFuselageMass`, aviary/subsystems/mass/flops_based/fuselage.py:140 -/
noncomputable def J_fuselage_mass__fuselage_max_width (fuselage_mass_scaler fuselage_wetted_area fuselage_max_height fuselage_max_width : ℝ) : ℝ :=
  ((((870519 / 1000000) * fuselage_wetted_area) * (fuselage_max_width ^ ((-(779 / 1000)) : ℝ)))
    / (fuse_height_fact fuselage_max_height)) * fuselage_mass_scaler

theorem d_fuselage_mass__fuselage_mass_scaler (fuselage_mass_scaler fuselage_wetted_area
    fuselage_max_height fuselage_max_width : ℝ) (h0 : 0 < fuselage_max_width) (h1 : 0 <
    fuselage_max_height) :
    HasDerivAt (fun t => out_fuselage_mass t fuselage_wetted_area fuselage_max_height fuselage_max_width) (J_fuselage_mass__fuselage_mass_scaler fuselage_wetted_area fuselage_max_height fuselage_max_width) fuselage_mass_scaler := by
  simp only [out_fuselage_mass, J_fuselage_mass__fuselage_mass_scaler, total_fact, fuse_width_fact, fuse_height_fact]
  (apply hasDerivAt_of_eq; on_goal 1 => (repeat' comp_step))
  all_goals try comp_side
  all_goals try simp (disch := first | assumption | positivity) only [mul_rpow, div_rpow]
  all_goals try simp only [mul_zero, zero_mul, add_zero, zero_add, sub_zero, zero_sub, mul_one, one_mul]
  all_goals try push_cast
  all_goals comp_eq

theorem d_fuselage_mass__fuselage_wetted_area (fuselage_mass_scaler fuselage_wetted_area
    fuselage_max_height fuselage_max_width : ℝ) (h0 : 0 < fuselage_max_width) (h1 : 0 <
    fuselage_max_height) :
    HasDerivAt (fun t => out_fuselage_mass fuselage_mass_scaler t fuselage_max_height fuselage_max_width) (J_fuselage_mass__fuselage_wetted_area fuselage_mass_scaler fuselage_max_height fuselage_max_width) fuselage_wetted_area := by
  simp only [out_fuselage_mass, J_fuselage_mass__fuselage_wetted_area, total_fact, fuse_width_fact, fuse_height_fact]
  (apply hasDerivAt_of_eq; on_goal 1 => (repeat' comp_step))
  all_goals try comp_side
  all_goals try simp (disch := first | assumption | positivity) only [mul_rpow, div_rpow]
  all_goals try simp only [mul_zero, zero_mul, add_zero, zero_add, sub_zero, zero_sub, mul_one, one_mul]
  all_goals try push_cast
  all_goals comp_eq

theorem d_fuselage_mass__fuselage_max_height (fuselage_mass_scaler fuselage_wetted_area
    fuselage_max_height fuselage_max_width : ℝ) (h0 : 0 < fuselage_max_width) (h1 : 0 <
    fuselage_max_height) :
    HasDerivAt (fun t => out_fuselage_mass fuselage_mass_scaler fuselage_wetted_area t fuselage_max_width) (J_fuselage_mass__fuselage_max_height fuselage_mass_scaler fuselage_wetted_area fuselage_max_height fuselage_max_width) fuselage_max_height := by
  have e0 : ∀ x : ℝ, 0 < x → x ^ ((-(1221 / 1000)) : ℝ) = 1 / (x ^ 1 * x ^ ((221 / 1000) : ℝ)) := fun x hx => rpow_compn hx 1 (by norm_num)
  simp only [out_fuselage_mass, J_fuselage_mass__fuselage_max_height, fuse_width_fact]
  (apply hasDerivAt_of_eq; on_goal 1 => (repeat' comp_step))
  all_goals try comp_side
  all_goals try simp (disch := first | assumption | positivity) only [mul_rpow, div_rpow, e0]
  all_goals try simp only [mul_zero, zero_mul, add_zero, zero_add, sub_zero, zero_sub, mul_one, one_mul]
  all_goals try push_cast
  all_goals comp_eq

theorem d_fuselage_mass__fuselage_max_width (fuselage_mass_scaler fuselage_wetted_area
    fuselage_max_height fuselage_max_width : ℝ) (h0 : 0 < fuselage_max_width) (h1 : 0 <
    fuselage_max_height) :
    HasDerivAt (fun t => out_fuselage_mass fuselage_mass_scaler fuselage_wetted_area fuselage_max_height t) (J_fuselage_mass__fuselage_max_width fuselage_mass_scaler fuselage_wetted_area fuselage_max_height fuselage_max_width) fuselage_max_width := by
  have e0 : ∀ x : ℝ, 0 < x → x ^ ((-(779 / 1000)) : ℝ) = x ^ ((221 / 1000) : ℝ) / x ^ 1 := fun x hx => rpow_down hx 1 (by norm_num)
  simp only [out_fuselage_mass, J_fuselage_mass__fuselage_max_width, fuse_height_fact]
  (apply hasDerivAt_of_eq; on_goal 1 => (repeat' comp_step))
  all_goals try comp_side
  all_goals try simp (disch := first | assumption | positivity) only [mul_rpow, div_rpow, e0]
  all_goals try simp only [mul_zero, zero_mul, add_zero, zero_add, sub_zero, zero_sub, mul_one, one_mul]
  all_goals try push_cast
  all_goals comp_eq

/-- Every partial derivative set by `AltFuselageMass` is the derivative of its output. -/
theorem partials (fuselage_mass_scaler fuselage_wetted_area fuselage_max_height fuselage_max_width
    : ℝ) (h0 : 0 < fuselage_max_width) (h1 : 0 < fuselage_max_height) :
    HasDerivAt (fun t => out_fuselage_mass t fuselage_wetted_area fuselage_max_height
      fuselage_max_width) (J_fuselage_mass__fuselage_mass_scaler fuselage_wetted_area
      fuselage_max_height fuselage_max_width) fuselage_mass_scaler ∧
    HasDerivAt (fun t => out_fuselage_mass fuselage_mass_scaler t fuselage_max_height
      fuselage_max_width) (J_fuselage_mass__fuselage_wetted_area fuselage_mass_scaler
      fuselage_max_height fuselage_max_width) fuselage_wetted_area ∧
    HasDerivAt (fun t => out_fuselage_mass fuselage_mass_scaler fuselage_wetted_area t
      fuselage_max_width) (J_fuselage_mass__fuselage_max_height fuselage_mass_scaler
      fuselage_wetted_area fuselage_max_height fuselage_max_width) fuselage_max_height ∧
    HasDerivAt (fun t => out_fuselage_mass fuselage_mass_scaler fuselage_wetted_area
      fuselage_max_height t) (J_fuselage_mass__fuselage_max_width fuselage_mass_scaler
      fuselage_wetted_area fuselage_max_height fuselage_max_width) fuselage_max_width :=
  ⟨d_fuselage_mass__fuselage_mass_scaler _ _ _ _ h0 h1, d_fuselage_mass__fuselage_wetted_area _ _
    _ _ h0 h1, d_fuselage_mass__fuselage_max_height _ _ _ _ h0 h1,
    d_fuselage_mass__fuselage_max_width _ _ _ _ h0 h1⟩

example : ∃ fuselage_mass_scaler fuselage_wetted_area fuselage_max_height fuselage_max_width : ℝ,
      0 < fuselage_max_width ∧
      0 < fuselage_max_height :=
  ⟨0, 0, 1, 1, by comp_example, by comp_example⟩

end Verif.Comp.MassFlopsBasedFuselage.AltFuselageMass

namespace Verif.Comp.MassFlopsBasedFuselage.BWBAftBodyMass_brief
open Real

/-- aviary/subsystems/mass/flops_based/fuselage.py:269 -/
noncomputable def aftbody_area (fuselage_planform_area fuselage_cabin_area : ℝ) : ℝ :=
  fuselage_planform_area - fuselage_cabin_area

/-- aviary/subsystems/mass/flops_based/fuselage.py:270 -/
noncomputable def aftbody_tr (fuselage_length wing_root_chord bwb_rear_spar_percent_chord_root bwb_rear_spar_percent_chord_centerline : ℝ) : ℝ :=
  ((1 - bwb_rear_spar_percent_chord_root) * wing_root_chord) / ((1 -
    bwb_rear_spar_percent_chord_centerline) * fuselage_length)

/-- aviary/subsystems/mass/flops_based/fuselage.py:273 -/
noncomputable def aftbody_weight (engine_num_fuselage_engines design_gross_mass fuselage_planform_area fuselage_cabin_area fuselage_length wing_root_chord bwb_rear_spar_percent_chord_root bwb_rear_spar_percent_chord_centerline : ℝ) : ℝ :=
  ((((1 + ((1 / 20) * engine_num_fuselage_engines)) * (53 / 100)) * (aftbody_area
    fuselage_planform_area fuselage_cabin_area)) * (design_gross_mass ^ ((1 / 5) : ℝ))) * ((1 /
    2) + (aftbody_tr fuselage_length wing_root_chord bwb_rear_spar_percent_chord_root
    bwb_rear_spar_percent_chord_centerline))

/-- aviary/subsystems/mass/flops_based/fuselage.py:280 -/
noncomputable def aftbody_weight_adjusted (engine_num_fuselage_engines design_gross_mass fuselage_planform_area fuselage_cabin_area fuselage_length wing_root_chord bwb_rear_spar_percent_chord_root bwb_rear_spar_percent_chord_centerline wing_composite_fraction : ℝ) : ℝ :=
  (aftbody_weight engine_num_fuselage_engines design_gross_mass fuselage_planform_area
    fuselage_cabin_area fuselage_length wing_root_chord bwb_rear_spar_percent_chord_root
    bwb_rear_spar_percent_chord_centerline) * (1 - ((17 / 100) * wing_composite_fraction))

/-- aviary/subsystems/mass/flops_based/fuselage.py:294 -/
noncomputable def fac (wing_composite_fraction : ℝ) : ℝ :=
  1 - ((17 / 100) * wing_composite_fraction)

/-- aviary/subsystems/mass/flops_based/fuselage.py:331 -/
noncomputable def daftbody_tr_droot_chord (fuselage_length bwb_rear_spar_percent_chord_root bwb_rear_spar_percent_chord_centerline : ℝ) : ℝ :=
  (1 - bwb_rear_spar_percent_chord_root) / ((1 - bwb_rear_spar_percent_chord_centerline) *
    fuselage_length)

/-- aviary/subsystems/mass/flops_based/fuselage.py:344 -/
noncomputable def daftbody_tr_dlength (fuselage_length wing_root_chord bwb_rear_spar_percent_chord_root bwb_rear_spar_percent_chord_centerline : ℝ) : ℝ :=
  (-((1 - bwb_rear_spar_percent_chord_root) * wing_root_chord)) / ((1 -
    bwb_rear_spar_percent_chord_centerline) * (fuselage_length ^ 2))

/-- aviary/subsystems/mass/flops_based/fuselage.py:357 -/
noncomputable def daftbody_tr_drspc (fuselage_length wing_root_chord bwb_rear_spar_percent_chord_centerline : ℝ) : ℝ :=
  ((-1) * wing_root_chord) / ((1 - bwb_rear_spar_percent_chord_centerline) * fuselage_length)

/-- aviary/subsystems/mass/flops_based/fuselage.py:370 -/
noncomputable def daftbody_tr_drspcc (fuselage_length wing_root_chord bwb_rear_spar_percent_chord_root bwb_rear_spar_percent_chord_centerline : ℝ) : ℝ :=
  ((1 - bwb_rear_spar_percent_chord_root) * wing_root_chord) / (((1 -
    bwb_rear_spar_percent_chord_centerline) ^ 2) * fuselage_length)

/-- Output `fuselage_aftbody_mass` of `BWBAftBodyMass.compute`, aviary/subsystems/mass/flops_based/fuselage.py:281 -/
noncomputable def out_fuselage_aftbody_mass (engine_num_fuselage_engines design_gross_mass fuselage_planform_area fuselage_cabin_area fuselage_length wing_root_chord bwb_rear_spar_percent_chord_root bwb_rear_spar_percent_chord_centerline : ℝ) : ℝ :=
  aftbody_weight engine_num_fuselage_engines design_gross_mass fuselage_planform_area
    fuselage_cabin_area fuselage_length wing_root_chord bwb_rear_spar_percent_chord_root
    bwb_rear_spar_percent_chord_centerline

/-- Output `wing_bwb_aftbody_mass` of `BWBAftBodyMass.compute`, aviary/subsystems/mass/flops_based/fuselage.py:282 -/
noncomputable def out_wing_bwb_aftbody_mass (engine_num_fuselage_engines design_gross_mass fuselage_planform_area fuselage_cabin_area fuselage_length wing_root_chord bwb_rear_spar_percent_chord_root bwb_rear_spar_percent_chord_centerline wing_composite_fraction : ℝ) : ℝ :=
  aftbody_weight_adjusted engine_num_fuselage_engines design_gross_mass fuselage_planform_area
    fuselage_cabin_area fuselage_length wing_root_chord bwb_rear_spar_percent_chord_root
    bwb_rear_spar_percent_chord_centerline wing_composite_fraction

/-- Partial of `fuselage_aftbody_mass` with respect to `design_gross_mass` as set by `BWBAftBodyMass`, aviary/subsystems/mass/flops_based/fuselage.py:308 -/
noncomputable def J_fuselage_aftbody_mass__design_gross_mass (engine_num_fuselage_engines design_gross_mass fuselage_planform_area fuselage_cabin_area fuselage_length wing_root_chord bwb_rear_spar_percent_chord_root bwb_rear_spar_percent_chord_centerline : ℝ) : ℝ :=
  (((((1 / 5) * (1 + ((1 / 20) * engine_num_fuselage_engines))) * (53 / 100)) * (aftbody_area
    fuselage_planform_area fuselage_cabin_area)) * (design_gross_mass ^ ((-(4 / 5)) : ℝ))) * ((1
    / 2) + (aftbody_tr fuselage_length wing_root_chord bwb_rear_spar_percent_chord_root
    bwb_rear_spar_percent_chord_centerline))

/-- Partial of `wing_bwb_aftbody_mass` with respect to `design_gross_mass` as set by `BWBAftBodyMass`, aviary/subsystems/mass/flops_based/fuselage.py:316 -/
noncomputable def J_wing_bwb_aftbody_mass__design_gross_mass (engine_num_fuselage_engines design_gross_mass fuselage_planform_area fuselage_cabin_area fuselage_length wing_root_chord bwb_rear_spar_percent_chord_root bwb_rear_spar_percent_chord_centerline wing_composite_fraction : ℝ) : ℝ :=
  ((((((1 / 5) * (1 + ((1 / 20) * engine_num_fuselage_engines))) * (53 / 100)) * (aftbody_area
    fuselage_planform_area fuselage_cabin_area)) * (design_gross_mass ^ ((-(4 / 5)) : ℝ))) * ((1
    / 2) + (aftbody_tr fuselage_length wing_root_chord bwb_rear_spar_percent_chord_root
    bwb_rear_spar_percent_chord_centerline))) * (fac wing_composite_fraction)

/-- Partial of `fuselage_aftbody_mass` with respect to `fuselage_planform_area` as set by `BWBAftBodyMass`, aviary/subsystems/mass/flops_based/fuselage.py:319 -/
noncomputable def J_fuselage_aftbody_mass__fuselage_planform_area (engine_num_fuselage_engines design_gross_mass fuselage_length wing_root_chord bwb_rear_spar_percent_chord_root bwb_rear_spar_percent_chord_centerline : ℝ) : ℝ :=
  (((1 + ((1 / 20) * engine_num_fuselage_engines)) * (53 / 100)) * (design_gross_mass ^ ((1 / 5)
    : ℝ))) * ((1 / 2) + (aftbody_tr fuselage_length wing_root_chord
    bwb_rear_spar_percent_chord_root bwb_rear_spar_percent_chord_centerline))

/-- Partial of `wing_bwb_aftbody_mass` with respect to `fuselage_planform_area` as set by `BWBAftBodyMass`, aviary/subsystems/mass/flops_based/fuselage.py:322 -/
noncomputable def J_wing_bwb_aftbody_mass__fuselage_planform_area (engine_num_fuselage_engines design_gross_mass fuselage_length wing_root_chord bwb_rear_spar_percent_chord_root bwb_rear_spar_percent_chord_centerline wing_composite_fraction : ℝ) : ℝ :=
  ((((1 + ((1 / 20) * engine_num_fuselage_engines)) * (53 / 100)) * (design_gross_mass ^ ((1 /
    5) : ℝ))) * ((1 / 2) + (aftbody_tr fuselage_length wing_root_chord
    bwb_rear_spar_percent_chord_root bwb_rear_spar_percent_chord_centerline))) * (fac
    wing_composite_fraction)

/-- Partial of `fuselage_aftbody_mass` with respect to `fuselage_cabin_area` as set by `BWBAftBodyMass`, aviary/subsystems/mass/flops_based/fuselage.py:325 -/
noncomputable def J_fuselage_aftbody_mass__fuselage_cabin_area (engine_num_fuselage_engines design_gross_mass fuselage_length wing_root_chord bwb_rear_spar_percent_chord_root bwb_rear_spar_percent_chord_centerline : ℝ) : ℝ :=
  (((-(1 + ((1 / 20) * engine_num_fuselage_engines))) * (53 / 100)) * (design_gross_mass ^ ((1 /
    5) : ℝ))) * ((1 / 2) + (aftbody_tr fuselage_length wing_root_chord
    bwb_rear_spar_percent_chord_root bwb_rear_spar_percent_chord_centerline))

/-- Partial of `wing_bwb_aftbody_mass` with respect to `fuselage_cabin_area` as set by `BWBAftBodyMass`, aviary/subsystems/mass/flops_based/fuselage.py:328 -/
noncomputable def J_wing_bwb_aftbody_mass__fuselage_cabin_area (engine_num_fuselage_engines design_gross_mass fuselage_length wing_root_chord bwb_rear_spar_percent_chord_root bwb_rear_spar_percent_chord_centerline wing_composite_fraction : ℝ) : ℝ :=
  ((((-(1 + ((1 / 20) * engine_num_fuselage_engines))) * (53 / 100)) * (design_gross_mass ^ ((1
    / 5) : ℝ))) * ((1 / 2) + (aftbody_tr fuselage_length wing_root_chord
    bwb_rear_spar_percent_chord_root bwb_rear_spar_percent_chord_centerline))) * (fac
    wing_composite_fraction)

/-- Partial of `fuselage_aftbody_mass` with respect to `wing_root_chord` as set by `BWBAftBodyMass`, aviary/subsystems/mass/flops_based/fuselage.py:334 -/
noncomputable def J_fuselage_aftbody_mass__wing_root_chord (engine_num_fuselage_engines design_gross_mass fuselage_planform_area fuselage_cabin_area fuselage_length bwb_rear_spar_percent_chord_root bwb_rear_spar_percent_chord_centerline : ℝ) : ℝ :=
  ((((1 + ((1 / 20) * engine_num_fuselage_engines)) * (53 / 100)) * (aftbody_area
    fuselage_planform_area fuselage_cabin_area)) * (design_gross_mass ^ ((1 / 5) : ℝ))) *
    (daftbody_tr_droot_chord fuselage_length bwb_rear_spar_percent_chord_root
    bwb_rear_spar_percent_chord_centerline)

/-- Partial of `wing_bwb_aftbody_mass` with respect to `wing_root_chord` as set by `BWBAftBodyMass`, aviary/subsystems/mass/flops_based/fuselage.py:341 -/
noncomputable def J_wing_bwb_aftbody_mass__wing_root_chord (engine_num_fuselage_engines design_gross_mass fuselage_planform_area fuselage_cabin_area fuselage_length bwb_rear_spar_percent_chord_root bwb_rear_spar_percent_chord_centerline wing_composite_fraction : ℝ) : ℝ :=
  (((((1 + ((1 / 20) * engine_num_fuselage_engines)) * (53 / 100)) * (aftbody_area
    fuselage_planform_area fuselage_cabin_area)) * (design_gross_mass ^ ((1 / 5) : ℝ))) *
    (daftbody_tr_droot_chord fuselage_length bwb_rear_spar_percent_chord_root
    bwb_rear_spar_percent_chord_centerline)) * (fac wing_composite_fraction)

/-- Partial of `fuselage_aftbody_mass` with respect to `fuselage_length` as set by `BWBAftBodyMass`, aviary/subsystems/mass/flops_based/fuselage.py:347 -/
noncomputable def J_fuselage_aftbody_mass__fuselage_length (engine_num_fuselage_engines design_gross_mass fuselage_planform_area fuselage_cabin_area fuselage_length wing_root_chord bwb_rear_spar_percent_chord_root bwb_rear_spar_percent_chord_centerline : ℝ) : ℝ :=
  ((((1 + ((1 / 20) * engine_num_fuselage_engines)) * (53 / 100)) * (aftbody_area
    fuselage_planform_area fuselage_cabin_area)) * (design_gross_mass ^ ((1 / 5) : ℝ))) *
    (daftbody_tr_dlength fuselage_length wing_root_chord bwb_rear_spar_percent_chord_root
    bwb_rear_spar_percent_chord_centerline)

/-- Partial of `wing_bwb_aftbody_mass` with respect to `fuselage_length` as set by `BWBAftBodyMass`, aviary/subsystems/mass/flops_based/fuselage.py:354 -/
noncomputable def J_wing_bwb_aftbody_mass__fuselage_length (engine_num_fuselage_engines design_gross_mass fuselage_planform_area fuselage_cabin_area fuselage_length wing_root_chord bwb_rear_spar_percent_chord_root bwb_rear_spar_percent_chord_centerline wing_composite_fraction : ℝ) : ℝ :=
  (((((1 + ((1 / 20) * engine_num_fuselage_engines)) * (53 / 100)) * (aftbody_area
    fuselage_planform_area fuselage_cabin_area)) * (design_gross_mass ^ ((1 / 5) : ℝ))) *
    (daftbody_tr_dlength fuselage_length wing_root_chord bwb_rear_spar_percent_chord_root
    bwb_rear_spar_percent_chord_centerline)) * (fac wing_composite_fraction)

/-- Partial of `fuselage_aftbody_mass` with respect to `bwb_rear_spar_percent_chord_root` as set by `BWBAftBodyMass`, aviary/subsystems/mass/flops_based/fuselage.py:360 -/
noncomputable def J_fuselage_aftbody_mass__bwb_rear_spar_percent_chord_root (engine_num_fuselage_engines design_gross_mass fuselage_planform_area fuselage_cabin_area fuselage_length wing_root_chord bwb_rear_spar_percent_chord_centerline : ℝ) : ℝ :=
  ((((1 + ((1 / 20) * engine_num_fuselage_engines)) * (53 / 100)) * (aftbody_area
    fuselage_planform_area fuselage_cabin_area)) * (design_gross_mass ^ ((1 / 5) : ℝ))) *
    (daftbody_tr_drspc fuselage_length wing_root_chord bwb_rear_spar_percent_chord_centerline)

/-- Partial of `wing_bwb_aftbody_mass` with respect to `bwb_rear_spar_percent_chord_root` as set by `BWBAftBodyMass`, aviary/subsystems/mass/flops_based/fuselage.py:367 -/
noncomputable def J_wing_bwb_aftbody_mass__bwb_rear_spar_percent_chord_root (engine_num_fuselage_engines design_gross_mass fuselage_planform_area fuselage_cabin_area fuselage_length wing_root_chord bwb_rear_spar_percent_chord_centerline wing_composite_fraction : ℝ) : ℝ :=
  (((((1 + ((1 / 20) * engine_num_fuselage_engines)) * (53 / 100)) * (aftbody_area
    fuselage_planform_area fuselage_cabin_area)) * (design_gross_mass ^ ((1 / 5) : ℝ))) *
    (daftbody_tr_drspc fuselage_length wing_root_chord bwb_rear_spar_percent_chord_centerline))
    * (fac wing_composite_fraction)

/-- Partial of `fuselage_aftbody_mass` with respect to `bwb_rear_spar_percent_chord_centerline` as set by `BWBAftBodyMass`, aviary/subsystems/mass/flops_based/fuselage.py:373 -/
noncomputable def J_fuselage_aftbody_mass__bwb_rear_spar_percent_chord_centerline (engine_num_fuselage_engines design_gross_mass fuselage_planform_area fuselage_cabin_area fuselage_length wing_root_chord bwb_rear_spar_percent_chord_root bwb_rear_spar_percent_chord_centerline : ℝ) : ℝ :=
  ((((1 + ((1 / 20) * engine_num_fuselage_engines)) * (53 / 100)) * (aftbody_area
    fuselage_planform_area fuselage_cabin_area)) * (design_gross_mass ^ ((1 / 5) : ℝ))) *
    (daftbody_tr_drspcc fuselage_length wing_root_chord bwb_rear_spar_percent_chord_root
    bwb_rear_spar_percent_chord_centerline)

/-- Partial of `wing_bwb_aftbody_mass` with respect to `bwb_rear_spar_percent_chord_centerline` as set by `BWBAftBodyMass`, aviary/subsystems/mass/flops_based/fuselage.py:380 -/
noncomputable def J_wing_bwb_aftbody_mass__bwb_rear_spar_percent_chord_centerline (engine_num_fuselage_engines design_gross_mass fuselage_planform_area fuselage_cabin_area fuselage_length wing_root_chord bwb_rear_spar_percent_chord_root bwb_rear_spar_percent_chord_centerline wing_composite_fraction : ℝ) : ℝ :=
  (((((1 + ((1 / 20) * engine_num_fuselage_engines)) * (53 / 100)) * (aftbody_area
    fuselage_planform_area fuselage_cabin_area)) * (design_gross_mass ^ ((1 / 5) : ℝ))) *
    (daftbody_tr_drspcc fuselage_length wing_root_chord bwb_rear_spar_percent_chord_root
    bwb_rear_spar_percent_chord_centerline)) * (fac wing_composite_fraction)

/-- Partial of `wing_bwb_aftbody_mass` with respect to `wing_composite_fraction` as set by `BWBAftBodyMass`, aviary/subsystems/mass/flops_based/fuselage.py:383 -/
noncomputable def J_wing_bwb_aftbody_mass__wing_composite_fraction (engine_num_fuselage_engines design_gross_mass fuselage_planform_area fuselage_cabin_area fuselage_length wing_root_chord bwb_rear_spar_percent_chord_root bwb_rear_spar_percent_chord_centerline : ℝ) : ℝ :=
  (-(17 / 100)) * (aftbody_weight engine_num_fuselage_engines design_gross_mass
    fuselage_planform_area fuselage_cabin_area fuselage_length wing_root_chord
    bwb_rear_spar_percent_chord_root bwb_rear_spar_percent_chord_centerline)

theorem d_fuselage_aftbody_mass__design_gross_mass (engine_num_fuselage_engines design_gross_mass
    fuselage_planform_area fuselage_cabin_area fuselage_length wing_root_chord
    bwb_rear_spar_percent_chord_root bwb_rear_spar_percent_chord_centerline : ℝ) (h0 : 0 <
    design_gross_mass) (h1 : 1 - bwb_rear_spar_percent_chord_centerline ≠ 0) (h2 : 0 <
    fuselage_length) :
    HasDerivAt (fun t => out_fuselage_aftbody_mass engine_num_fuselage_engines t fuselage_planform_area fuselage_cabin_area fuselage_length wing_root_chord bwb_rear_spar_percent_chord_root bwb_rear_spar_percent_chord_centerline) (J_fuselage_aftbody_mass__design_gross_mass engine_num_fuselage_engines design_gross_mass fuselage_planform_area fuselage_cabin_area fuselage_length wing_root_chord bwb_rear_spar_percent_chord_root bwb_rear_spar_percent_chord_centerline) design_gross_mass := by
  have e0 : ∀ x : ℝ, 0 < x → x ^ ((-(4 / 5)) : ℝ) = x ^ ((1 / 5) : ℝ) / x ^ 1 := fun x hx => rpow_down hx 1 (by norm_num)
  simp only [out_fuselage_aftbody_mass, J_fuselage_aftbody_mass__design_gross_mass, aftbody_weight, aftbody_tr, aftbody_area]
  (apply hasDerivAt_of_eq; on_goal 1 => (repeat' comp_step))
  all_goals try comp_side
  all_goals try simp (disch := first | assumption | positivity) only [e0]
  all_goals try simp only [mul_zero, zero_mul, add_zero, zero_add, sub_zero, zero_sub, mul_one, one_mul]
  all_goals try push_cast
  all_goals comp_eq

theorem d_fuselage_aftbody_mass__fuselage_planform_area (engine_num_fuselage_engines
    design_gross_mass fuselage_planform_area fuselage_cabin_area fuselage_length wing_root_chord
    bwb_rear_spar_percent_chord_root bwb_rear_spar_percent_chord_centerline : ℝ) (h0 : 0 <
    design_gross_mass) (h1 : 1 - bwb_rear_spar_percent_chord_centerline ≠ 0) (h2 : 0 <
    fuselage_length) :
    HasDerivAt (fun t => out_fuselage_aftbody_mass engine_num_fuselage_engines design_gross_mass t fuselage_cabin_area fuselage_length wing_root_chord bwb_rear_spar_percent_chord_root bwb_rear_spar_percent_chord_centerline) (J_fuselage_aftbody_mass__fuselage_planform_area engine_num_fuselage_engines design_gross_mass fuselage_length wing_root_chord bwb_rear_spar_percent_chord_root bwb_rear_spar_percent_chord_centerline) fuselage_planform_area := by
  simp only [out_fuselage_aftbody_mass, J_fuselage_aftbody_mass__fuselage_planform_area, aftbody_weight, aftbody_tr, aftbody_area]
  (apply hasDerivAt_of_eq; on_goal 1 => (repeat' comp_step))
  all_goals try comp_side
  all_goals try simp only [mul_zero, zero_mul, add_zero, zero_add, sub_zero, zero_sub, mul_one, one_mul]
  all_goals try push_cast
  all_goals comp_eq

theorem d_fuselage_aftbody_mass__fuselage_cabin_area (engine_num_fuselage_engines
    design_gross_mass fuselage_planform_area fuselage_cabin_area fuselage_length wing_root_chord
    bwb_rear_spar_percent_chord_root bwb_rear_spar_percent_chord_centerline : ℝ) (h0 : 0 <
    design_gross_mass) (h1 : 1 - bwb_rear_spar_percent_chord_centerline ≠ 0) (h2 : 0 <
    fuselage_length) :
    HasDerivAt (fun t => out_fuselage_aftbody_mass engine_num_fuselage_engines design_gross_mass fuselage_planform_area t fuselage_length wing_root_chord bwb_rear_spar_percent_chord_root bwb_rear_spar_percent_chord_centerline) (J_fuselage_aftbody_mass__fuselage_cabin_area engine_num_fuselage_engines design_gross_mass fuselage_length wing_root_chord bwb_rear_spar_percent_chord_root bwb_rear_spar_percent_chord_centerline) fuselage_cabin_area := by
  simp only [out_fuselage_aftbody_mass, J_fuselage_aftbody_mass__fuselage_cabin_area, aftbody_weight, aftbody_tr, aftbody_area]
  (apply hasDerivAt_of_eq; on_goal 1 => (repeat' comp_step))
  all_goals try comp_side
  all_goals try simp only [mul_zero, zero_mul, add_zero, zero_add, sub_zero, zero_sub, mul_one, one_mul]
  all_goals try push_cast
  all_goals comp_eq

theorem d_fuselage_aftbody_mass__fuselage_length (engine_num_fuselage_engines design_gross_mass
    fuselage_planform_area fuselage_cabin_area fuselage_length wing_root_chord
    bwb_rear_spar_percent_chord_root bwb_rear_spar_percent_chord_centerline : ℝ) (h0 : 0 <
    design_gross_mass) (h1 : 1 - bwb_rear_spar_percent_chord_centerline ≠ 0) (h2 : 0 <
    fuselage_length) :
    HasDerivAt (fun t => out_fuselage_aftbody_mass engine_num_fuselage_engines design_gross_mass fuselage_planform_area fuselage_cabin_area t wing_root_chord bwb_rear_spar_percent_chord_root bwb_rear_spar_percent_chord_centerline) (J_fuselage_aftbody_mass__fuselage_length engine_num_fuselage_engines design_gross_mass fuselage_planform_area fuselage_cabin_area fuselage_length wing_root_chord bwb_rear_spar_percent_chord_root bwb_rear_spar_percent_chord_centerline) fuselage_length := by
  simp only [out_fuselage_aftbody_mass, J_fuselage_aftbody_mass__fuselage_length, daftbody_tr_dlength, aftbody_weight, aftbody_tr, aftbody_area]
  (apply hasDerivAt_of_eq; on_goal 1 => (repeat' comp_step))
  all_goals try comp_side
  all_goals try simp only [mul_zero, zero_mul, add_zero, zero_add, sub_zero, zero_sub, mul_one, one_mul]
  all_goals try push_cast
  all_goals comp_eq

theorem d_fuselage_aftbody_mass__wing_root_chord (engine_num_fuselage_engines design_gross_mass
    fuselage_planform_area fuselage_cabin_area fuselage_length wing_root_chord
    bwb_rear_spar_percent_chord_root bwb_rear_spar_percent_chord_centerline : ℝ) (h0 : 0 <
    design_gross_mass) (h1 : 1 - bwb_rear_spar_percent_chord_centerline ≠ 0) (h2 : 0 <
    fuselage_length) :
    HasDerivAt (fun t => out_fuselage_aftbody_mass engine_num_fuselage_engines design_gross_mass fuselage_planform_area fuselage_cabin_area fuselage_length t bwb_rear_spar_percent_chord_root bwb_rear_spar_percent_chord_centerline) (J_fuselage_aftbody_mass__wing_root_chord engine_num_fuselage_engines design_gross_mass fuselage_planform_area fuselage_cabin_area fuselage_length bwb_rear_spar_percent_chord_root bwb_rear_spar_percent_chord_centerline) wing_root_chord := by
  simp only [out_fuselage_aftbody_mass, J_fuselage_aftbody_mass__wing_root_chord, daftbody_tr_droot_chord, aftbody_weight, aftbody_tr, aftbody_area]
  (apply hasDerivAt_of_eq; on_goal 1 => (repeat' comp_step))
  all_goals try comp_side
  all_goals try simp only [mul_zero, zero_mul, add_zero, zero_add, sub_zero, zero_sub, mul_one, one_mul]
  all_goals try push_cast
  all_goals comp_eq

theorem d_fuselage_aftbody_mass__bwb_rear_spar_percent_chord_root (engine_num_fuselage_engines
    design_gross_mass fuselage_planform_area fuselage_cabin_area fuselage_length wing_root_chord
    bwb_rear_spar_percent_chord_root bwb_rear_spar_percent_chord_centerline : ℝ) (h0 : 0 <
    design_gross_mass) (h1 : 1 - bwb_rear_spar_percent_chord_centerline ≠ 0) (h2 : 0 <
    fuselage_length) :
    HasDerivAt (fun t => out_fuselage_aftbody_mass engine_num_fuselage_engines design_gross_mass fuselage_planform_area fuselage_cabin_area fuselage_length wing_root_chord t bwb_rear_spar_percent_chord_centerline) (J_fuselage_aftbody_mass__bwb_rear_spar_percent_chord_root engine_num_fuselage_engines design_gross_mass fuselage_planform_area fuselage_cabin_area fuselage_length wing_root_chord bwb_rear_spar_percent_chord_centerline) bwb_rear_spar_percent_chord_root := by
  simp only [out_fuselage_aftbody_mass, J_fuselage_aftbody_mass__bwb_rear_spar_percent_chord_root, daftbody_tr_drspc, aftbody_weight, aftbody_tr, aftbody_area]
  (apply hasDerivAt_of_eq; on_goal 1 => (repeat' comp_step))
  all_goals try comp_side
  all_goals try simp only [mul_zero, zero_mul, add_zero, zero_add, sub_zero, zero_sub, mul_one, one_mul]
  all_goals try push_cast
  all_goals comp_eq

theorem d_fuselage_aftbody_mass__bwb_rear_spar_percent_chord_centerline
    (engine_num_fuselage_engines design_gross_mass fuselage_planform_area fuselage_cabin_area
    fuselage_length wing_root_chord bwb_rear_spar_percent_chord_root
    bwb_rear_spar_percent_chord_centerline : ℝ) (h0 : 0 < design_gross_mass) (h1 : 1 -
    bwb_rear_spar_percent_chord_centerline ≠ 0) (h2 : 0 < fuselage_length) :
    HasDerivAt (fun t => out_fuselage_aftbody_mass engine_num_fuselage_engines design_gross_mass fuselage_planform_area fuselage_cabin_area fuselage_length wing_root_chord bwb_rear_spar_percent_chord_root t) (J_fuselage_aftbody_mass__bwb_rear_spar_percent_chord_centerline engine_num_fuselage_engines design_gross_mass fuselage_planform_area fuselage_cabin_area fuselage_length wing_root_chord bwb_rear_spar_percent_chord_root bwb_rear_spar_percent_chord_centerline) bwb_rear_spar_percent_chord_centerline := by
  simp only [out_fuselage_aftbody_mass, J_fuselage_aftbody_mass__bwb_rear_spar_percent_chord_centerline, daftbody_tr_drspcc, aftbody_weight, aftbody_tr, aftbody_area]
  (apply hasDerivAt_of_eq; on_goal 1 => (repeat' comp_step))
  all_goals try comp_side
  all_goals try simp only [mul_zero, zero_mul, add_zero, zero_add, sub_zero, zero_sub, mul_one, one_mul]
  all_goals try push_cast
  all_goals comp_eq

theorem d_wing_bwb_aftbody_mass__design_gross_mass (engine_num_fuselage_engines design_gross_mass
    fuselage_planform_area fuselage_cabin_area fuselage_length wing_root_chord
    bwb_rear_spar_percent_chord_root bwb_rear_spar_percent_chord_centerline
    wing_composite_fraction : ℝ) (h0 : 0 < design_gross_mass) (h1 : 1 -
    bwb_rear_spar_percent_chord_centerline ≠ 0) (h2 : 0 < fuselage_length) :
    HasDerivAt (fun t => out_wing_bwb_aftbody_mass engine_num_fuselage_engines t fuselage_planform_area fuselage_cabin_area fuselage_length wing_root_chord bwb_rear_spar_percent_chord_root bwb_rear_spar_percent_chord_centerline wing_composite_fraction) (J_wing_bwb_aftbody_mass__design_gross_mass engine_num_fuselage_engines design_gross_mass fuselage_planform_area fuselage_cabin_area fuselage_length wing_root_chord bwb_rear_spar_percent_chord_root bwb_rear_spar_percent_chord_centerline wing_composite_fraction) design_gross_mass := by
  have e0 : ∀ x : ℝ, 0 < x → x ^ ((-(4 / 5)) : ℝ) = x ^ ((1 / 5) : ℝ) / x ^ 1 := fun x hx => rpow_down hx 1 (by norm_num)
  simp only [out_wing_bwb_aftbody_mass, J_wing_bwb_aftbody_mass__design_gross_mass, fac, aftbody_weight_adjusted, aftbody_weight, aftbody_tr, aftbody_area]
  (apply hasDerivAt_of_eq; on_goal 1 => (repeat' comp_step))
  all_goals try comp_side
  all_goals try simp (disch := first | assumption | positivity) only [e0]
  all_goals try simp only [mul_zero, zero_mul, add_zero, zero_add, sub_zero, zero_sub, mul_one, one_mul]
  all_goals try push_cast
  all_goals comp_eq

theorem d_wing_bwb_aftbody_mass__fuselage_planform_area (engine_num_fuselage_engines
    design_gross_mass fuselage_planform_area fuselage_cabin_area fuselage_length wing_root_chord
    bwb_rear_spar_percent_chord_root bwb_rear_spar_percent_chord_centerline
    wing_composite_fraction : ℝ) (h0 : 0 < design_gross_mass) (h1 : 1 -
    bwb_rear_spar_percent_chord_centerline ≠ 0) (h2 : 0 < fuselage_length) :
    HasDerivAt (fun t => out_wing_bwb_aftbody_mass engine_num_fuselage_engines design_gross_mass t fuselage_cabin_area fuselage_length wing_root_chord bwb_rear_spar_percent_chord_root bwb_rear_spar_percent_chord_centerline wing_composite_fraction) (J_wing_bwb_aftbody_mass__fuselage_planform_area engine_num_fuselage_engines design_gross_mass fuselage_length wing_root_chord bwb_rear_spar_percent_chord_root bwb_rear_spar_percent_chord_centerline wing_composite_fraction) fuselage_planform_area := by
  simp only [out_wing_bwb_aftbody_mass, J_wing_bwb_aftbody_mass__fuselage_planform_area, fac, aftbody_weight_adjusted, aftbody_weight, aftbody_tr, aftbody_area]
  (apply hasDerivAt_of_eq; on_goal 1 => (repeat' comp_step))
  all_goals try comp_side
  all_goals try simp only [mul_zero, zero_mul, add_zero, zero_add, sub_zero, zero_sub, mul_one, one_mul]
  all_goals try push_cast
  all_goals comp_eq

theorem d_wing_bwb_aftbody_mass__fuselage_cabin_area (engine_num_fuselage_engines
    design_gross_mass fuselage_planform_area fuselage_cabin_area fuselage_length wing_root_chord
    bwb_rear_spar_percent_chord_root bwb_rear_spar_percent_chord_centerline
    wing_composite_fraction : ℝ) (h0 : 0 < design_gross_mass) (h1 : 1 -
    bwb_rear_spar_percent_chord_centerline ≠ 0) (h2 : 0 < fuselage_length) :
    HasDerivAt (fun t => out_wing_bwb_aftbody_mass engine_num_fuselage_engines design_gross_mass fuselage_planform_area t fuselage_length wing_root_chord bwb_rear_spar_percent_chord_root bwb_rear_spar_percent_chord_centerline wing_composite_fraction) (J_wing_bwb_aftbody_mass__fuselage_cabin_area engine_num_fuselage_engines design_gross_mass fuselage_length wing_root_chord bwb_rear_spar_percent_chord_root bwb_rear_spar_percent_chord_centerline wing_composite_fraction) fuselage_cabin_area := by
  simp only [out_wing_bwb_aftbody_mass, J_wing_bwb_aftbody_mass__fuselage_cabin_area, fac, aftbody_weight_adjusted, aftbody_weight, aftbody_tr, aftbody_area]
  (apply hasDerivAt_of_eq; on_goal 1 => (repeat' comp_step))
  all_goals try comp_side
  all_goals try simp only [mul_zero, zero_mul, add_zero, zero_add, sub_zero, zero_sub, mul_one, one_mul]
  all_goals try push_cast
  all_goals comp_eq

theorem d_wing_bwb_aftbody_mass__fuselage_length (engine_num_fuselage_engines design_gross_mass
    fuselage_planform_area fuselage_cabin_area fuselage_length wing_root_chord
    bwb_rear_spar_percent_chord_root bwb_rear_spar_percent_chord_centerline
    wing_composite_fraction : ℝ) (h0 : 0 < design_gross_mass) (h1 : 1 -
    bwb_rear_spar_percent_chord_centerline ≠ 0) (h2 : 0 < fuselage_length) :
    HasDerivAt (fun t => out_wing_bwb_aftbody_mass engine_num_fuselage_engines design_gross_mass fuselage_planform_area fuselage_cabin_area t wing_root_chord bwb_rear_spar_percent_chord_root bwb_rear_spar_percent_chord_centerline wing_composite_fraction) (J_wing_bwb_aftbody_mass__fuselage_length engine_num_fuselage_engines design_gross_mass fuselage_planform_area fuselage_cabin_area fuselage_length wing_root_chord bwb_rear_spar_percent_chord_root bwb_rear_spar_percent_chord_centerline wing_composite_fraction) fuselage_length := by
  simp only [out_wing_bwb_aftbody_mass, J_wing_bwb_aftbody_mass__fuselage_length, fac, daftbody_tr_dlength, aftbody_weight_adjusted, aftbody_weight, aftbody_tr, aftbody_area]
  (apply hasDerivAt_of_eq; on_goal 1 => (repeat' comp_step))
  all_goals try comp_side
  all_goals try simp only [mul_zero, zero_mul, add_zero, zero_add, sub_zero, zero_sub, mul_one, one_mul]
  all_goals try push_cast
  all_goals comp_eq

theorem d_wing_bwb_aftbody_mass__wing_root_chord (engine_num_fuselage_engines design_gross_mass
    fuselage_planform_area fuselage_cabin_area fuselage_length wing_root_chord
    bwb_rear_spar_percent_chord_root bwb_rear_spar_percent_chord_centerline
    wing_composite_fraction : ℝ) (h0 : 0 < design_gross_mass) (h1 : 1 -
    bwb_rear_spar_percent_chord_centerline ≠ 0) (h2 : 0 < fuselage_length) :
    HasDerivAt (fun t => out_wing_bwb_aftbody_mass engine_num_fuselage_engines design_gross_mass fuselage_planform_area fuselage_cabin_area fuselage_length t bwb_rear_spar_percent_chord_root bwb_rear_spar_percent_chord_centerline wing_composite_fraction) (J_wing_bwb_aftbody_mass__wing_root_chord engine_num_fuselage_engines design_gross_mass fuselage_planform_area fuselage_cabin_area fuselage_length bwb_rear_spar_percent_chord_root bwb_rear_spar_percent_chord_centerline wing_composite_fraction) wing_root_chord := by
  simp only [out_wing_bwb_aftbody_mass, J_wing_bwb_aftbody_mass__wing_root_chord, fac, daftbody_tr_droot_chord, aftbody_weight_adjusted, aftbody_weight, aftbody_tr, aftbody_area]
  (apply hasDerivAt_of_eq; on_goal 1 => (repeat' comp_step))
  all_goals try comp_side
  all_goals try simp only [mul_zero, zero_mul, add_zero, zero_add, sub_zero, zero_sub, mul_one, one_mul]
  all_goals try push_cast
  all_goals comp_eq

theorem d_wing_bwb_aftbody_mass__bwb_rear_spar_percent_chord_root (engine_num_fuselage_engines
    design_gross_mass fuselage_planform_area fuselage_cabin_area fuselage_length wing_root_chord
    bwb_rear_spar_percent_chord_root bwb_rear_spar_percent_chord_centerline
    wing_composite_fraction : ℝ) (h0 : 0 < design_gross_mass) (h1 : 1 -
    bwb_rear_spar_percent_chord_centerline ≠ 0) (h2 : 0 < fuselage_length) :
    HasDerivAt (fun t => out_wing_bwb_aftbody_mass engine_num_fuselage_engines design_gross_mass fuselage_planform_area fuselage_cabin_area fuselage_length wing_root_chord t bwb_rear_spar_percent_chord_centerline wing_composite_fraction) (J_wing_bwb_aftbody_mass__bwb_rear_spar_percent_chord_root engine_num_fuselage_engines design_gross_mass fuselage_planform_area fuselage_cabin_area fuselage_length wing_root_chord bwb_rear_spar_percent_chord_centerline wing_composite_fraction) bwb_rear_spar_percent_chord_root := by
  simp only [out_wing_bwb_aftbody_mass, J_wing_bwb_aftbody_mass__bwb_rear_spar_percent_chord_root, fac, daftbody_tr_drspc, aftbody_weight_adjusted, aftbody_weight, aftbody_tr, aftbody_area]
  (apply hasDerivAt_of_eq; on_goal 1 => (repeat' comp_step))
  all_goals try comp_side
  all_goals try simp only [mul_zero, zero_mul, add_zero, zero_add, sub_zero, zero_sub, mul_one, one_mul]
  all_goals try push_cast
  all_goals comp_eq

theorem d_wing_bwb_aftbody_mass__bwb_rear_spar_percent_chord_centerline
    (engine_num_fuselage_engines design_gross_mass fuselage_planform_area fuselage_cabin_area
    fuselage_length wing_root_chord bwb_rear_spar_percent_chord_root
    bwb_rear_spar_percent_chord_centerline wing_composite_fraction : ℝ) (h0 : 0 <
    design_gross_mass) (h1 : 1 - bwb_rear_spar_percent_chord_centerline ≠ 0) (h2 : 0 <
    fuselage_length) :
    HasDerivAt (fun t => out_wing_bwb_aftbody_mass engine_num_fuselage_engines design_gross_mass fuselage_planform_area fuselage_cabin_area fuselage_length wing_root_chord bwb_rear_spar_percent_chord_root t wing_composite_fraction) (J_wing_bwb_aftbody_mass__bwb_rear_spar_percent_chord_centerline engine_num_fuselage_engines design_gross_mass fuselage_planform_area fuselage_cabin_area fuselage_length wing_root_chord bwb_rear_spar_percent_chord_root bwb_rear_spar_percent_chord_centerline wing_composite_fraction) bwb_rear_spar_percent_chord_centerline := by
  simp only [out_wing_bwb_aftbody_mass, J_wing_bwb_aftbody_mass__bwb_rear_spar_percent_chord_centerline, fac, daftbody_tr_drspcc, aftbody_weight_adjusted, aftbody_weight, aftbody_tr, aftbody_area]
  (apply hasDerivAt_of_eq; on_goal 1 => (repeat' comp_step))
  all_goals try comp_side
  all_goals try simp only [mul_zero, zero_mul, add_zero, zero_add, sub_zero, zero_sub, mul_one, one_mul]
  all_goals try push_cast
  all_goals comp_eq

theorem d_wing_bwb_aftbody_mass__wing_composite_fraction (engine_num_fuselage_engines
    design_gross_mass fuselage_planform_area fuselage_cabin_area fuselage_length wing_root_chord
    bwb_rear_spar_percent_chord_root bwb_rear_spar_percent_chord_centerline
    wing_composite_fraction : ℝ) (h0 : 0 < design_gross_mass) (h1 : 1 -
    bwb_rear_spar_percent_chord_centerline ≠ 0) (h2 : 0 < fuselage_length) :
    HasDerivAt (fun t => out_wing_bwb_aftbody_mass engine_num_fuselage_engines design_gross_mass fuselage_planform_area fuselage_cabin_area fuselage_length wing_root_chord bwb_rear_spar_percent_chord_root bwb_rear_spar_percent_chord_centerline t) (J_wing_bwb_aftbody_mass__wing_composite_fraction engine_num_fuselage_engines design_gross_mass fuselage_planform_area fuselage_cabin_area fuselage_length wing_root_chord bwb_rear_spar_percent_chord_root bwb_rear_spar_percent_chord_centerline) wing_composite_fraction := by
  simp only [out_wing_bwb_aftbody_mass, J_wing_bwb_aftbody_mass__wing_composite_fraction, aftbody_weight_adjusted, aftbody_weight, aftbody_tr, aftbody_area]
  (apply hasDerivAt_of_eq; on_goal 1 => (repeat' comp_step))
  all_goals try comp_side
  all_goals try simp only [mul_zero, zero_mul, add_zero, zero_add, sub_zero, zero_sub, mul_one, one_mul]
  all_goals try push_cast
  all_goals comp_eq

/-- Every partial derivative set by `BWBAftBodyMass` is the derivative of its output. -/
theorem partials (engine_num_fuselage_engines design_gross_mass fuselage_planform_area
    fuselage_cabin_area fuselage_length wing_root_chord bwb_rear_spar_percent_chord_root
    bwb_rear_spar_percent_chord_centerline wing_composite_fraction : ℝ) (h0 : 0 <
    design_gross_mass) (h1 : 1 - bwb_rear_spar_percent_chord_centerline ≠ 0) (h2 : 0 <
    fuselage_length) :
    HasDerivAt (fun t => out_fuselage_aftbody_mass engine_num_fuselage_engines t
      fuselage_planform_area fuselage_cabin_area fuselage_length wing_root_chord
      bwb_rear_spar_percent_chord_root bwb_rear_spar_percent_chord_centerline)
      (J_fuselage_aftbody_mass__design_gross_mass engine_num_fuselage_engines design_gross_mass
      fuselage_planform_area fuselage_cabin_area fuselage_length wing_root_chord
      bwb_rear_spar_percent_chord_root bwb_rear_spar_percent_chord_centerline) design_gross_mass ∧
    HasDerivAt (fun t => out_fuselage_aftbody_mass engine_num_fuselage_engines design_gross_mass t
      fuselage_cabin_area fuselage_length wing_root_chord bwb_rear_spar_percent_chord_root
      bwb_rear_spar_percent_chord_centerline) (J_fuselage_aftbody_mass__fuselage_planform_area
      engine_num_fuselage_engines design_gross_mass fuselage_length wing_root_chord
      bwb_rear_spar_percent_chord_root bwb_rear_spar_percent_chord_centerline)
      fuselage_planform_area ∧
    HasDerivAt (fun t => out_fuselage_aftbody_mass engine_num_fuselage_engines design_gross_mass
      fuselage_planform_area t fuselage_length wing_root_chord bwb_rear_spar_percent_chord_root
      bwb_rear_spar_percent_chord_centerline) (J_fuselage_aftbody_mass__fuselage_cabin_area
      engine_num_fuselage_engines design_gross_mass fuselage_length wing_root_chord
      bwb_rear_spar_percent_chord_root bwb_rear_spar_percent_chord_centerline) fuselage_cabin_area ∧
    HasDerivAt (fun t => out_fuselage_aftbody_mass engine_num_fuselage_engines design_gross_mass
      fuselage_planform_area fuselage_cabin_area t wing_root_chord
      bwb_rear_spar_percent_chord_root bwb_rear_spar_percent_chord_centerline)
      (J_fuselage_aftbody_mass__fuselage_length engine_num_fuselage_engines design_gross_mass
      fuselage_planform_area fuselage_cabin_area fuselage_length wing_root_chord
      bwb_rear_spar_percent_chord_root bwb_rear_spar_percent_chord_centerline) fuselage_length ∧
    HasDerivAt (fun t => out_fuselage_aftbody_mass engine_num_fuselage_engines design_gross_mass
      fuselage_planform_area fuselage_cabin_area fuselage_length t
      bwb_rear_spar_percent_chord_root bwb_rear_spar_percent_chord_centerline)
      (J_fuselage_aftbody_mass__wing_root_chord engine_num_fuselage_engines design_gross_mass
      fuselage_planform_area fuselage_cabin_area fuselage_length bwb_rear_spar_percent_chord_root
      bwb_rear_spar_percent_chord_centerline) wing_root_chord ∧
    HasDerivAt (fun t => out_fuselage_aftbody_mass engine_num_fuselage_engines design_gross_mass
      fuselage_planform_area fuselage_cabin_area fuselage_length wing_root_chord t
      bwb_rear_spar_percent_chord_centerline)
      (J_fuselage_aftbody_mass__bwb_rear_spar_percent_chord_root engine_num_fuselage_engines
      design_gross_mass fuselage_planform_area fuselage_cabin_area fuselage_length wing_root_chord
      bwb_rear_spar_percent_chord_centerline) bwb_rear_spar_percent_chord_root ∧
    HasDerivAt (fun t => out_fuselage_aftbody_mass engine_num_fuselage_engines design_gross_mass
      fuselage_planform_area fuselage_cabin_area fuselage_length wing_root_chord
      bwb_rear_spar_percent_chord_root t)
      (J_fuselage_aftbody_mass__bwb_rear_spar_percent_chord_centerline engine_num_fuselage_engines
      design_gross_mass fuselage_planform_area fuselage_cabin_area fuselage_length wing_root_chord
      bwb_rear_spar_percent_chord_root bwb_rear_spar_percent_chord_centerline)
      bwb_rear_spar_percent_chord_centerline ∧
    HasDerivAt (fun t => out_wing_bwb_aftbody_mass engine_num_fuselage_engines t
      fuselage_planform_area fuselage_cabin_area fuselage_length wing_root_chord
      bwb_rear_spar_percent_chord_root bwb_rear_spar_percent_chord_centerline
      wing_composite_fraction) (J_wing_bwb_aftbody_mass__design_gross_mass
      engine_num_fuselage_engines design_gross_mass fuselage_planform_area fuselage_cabin_area
      fuselage_length wing_root_chord bwb_rear_spar_percent_chord_root
      bwb_rear_spar_percent_chord_centerline wing_composite_fraction) design_gross_mass ∧
    HasDerivAt (fun t => out_wing_bwb_aftbody_mass engine_num_fuselage_engines design_gross_mass t
      fuselage_cabin_area fuselage_length wing_root_chord bwb_rear_spar_percent_chord_root
      bwb_rear_spar_percent_chord_centerline wing_composite_fraction)
      (J_wing_bwb_aftbody_mass__fuselage_planform_area engine_num_fuselage_engines
      design_gross_mass fuselage_length wing_root_chord bwb_rear_spar_percent_chord_root
      bwb_rear_spar_percent_chord_centerline wing_composite_fraction) fuselage_planform_area ∧
    HasDerivAt (fun t => out_wing_bwb_aftbody_mass engine_num_fuselage_engines design_gross_mass
      fuselage_planform_area t fuselage_length wing_root_chord bwb_rear_spar_percent_chord_root
      bwb_rear_spar_percent_chord_centerline wing_composite_fraction)
      (J_wing_bwb_aftbody_mass__fuselage_cabin_area engine_num_fuselage_engines design_gross_mass
      fuselage_length wing_root_chord bwb_rear_spar_percent_chord_root
      bwb_rear_spar_percent_chord_centerline wing_composite_fraction) fuselage_cabin_area ∧
    HasDerivAt (fun t => out_wing_bwb_aftbody_mass engine_num_fuselage_engines design_gross_mass
      fuselage_planform_area fuselage_cabin_area t wing_root_chord
      bwb_rear_spar_percent_chord_root bwb_rear_spar_percent_chord_centerline
      wing_composite_fraction) (J_wing_bwb_aftbody_mass__fuselage_length
      engine_num_fuselage_engines design_gross_mass fuselage_planform_area fuselage_cabin_area
      fuselage_length wing_root_chord bwb_rear_spar_percent_chord_root
      bwb_rear_spar_percent_chord_centerline wing_composite_fraction) fuselage_length ∧
    HasDerivAt (fun t => out_wing_bwb_aftbody_mass engine_num_fuselage_engines design_gross_mass
      fuselage_planform_area fuselage_cabin_area fuselage_length t
      bwb_rear_spar_percent_chord_root bwb_rear_spar_percent_chord_centerline
      wing_composite_fraction) (J_wing_bwb_aftbody_mass__wing_root_chord
      engine_num_fuselage_engines design_gross_mass fuselage_planform_area fuselage_cabin_area
      fuselage_length bwb_rear_spar_percent_chord_root bwb_rear_spar_percent_chord_centerline
      wing_composite_fraction) wing_root_chord ∧
    HasDerivAt (fun t => out_wing_bwb_aftbody_mass engine_num_fuselage_engines design_gross_mass
      fuselage_planform_area fuselage_cabin_area fuselage_length wing_root_chord t
      bwb_rear_spar_percent_chord_centerline wing_composite_fraction)
      (J_wing_bwb_aftbody_mass__bwb_rear_spar_percent_chord_root engine_num_fuselage_engines
      design_gross_mass fuselage_planform_area fuselage_cabin_area fuselage_length wing_root_chord
      bwb_rear_spar_percent_chord_centerline wing_composite_fraction)
      bwb_rear_spar_percent_chord_root ∧
    HasDerivAt (fun t => out_wing_bwb_aftbody_mass engine_num_fuselage_engines design_gross_mass
      fuselage_planform_area fuselage_cabin_area fuselage_length wing_root_chord
      bwb_rear_spar_percent_chord_root t wing_composite_fraction)
      (J_wing_bwb_aftbody_mass__bwb_rear_spar_percent_chord_centerline engine_num_fuselage_engines
      design_gross_mass fuselage_planform_area fuselage_cabin_area fuselage_length wing_root_chord
      bwb_rear_spar_percent_chord_root bwb_rear_spar_percent_chord_centerline
      wing_composite_fraction) bwb_rear_spar_percent_chord_centerline ∧
    HasDerivAt (fun t => out_wing_bwb_aftbody_mass engine_num_fuselage_engines design_gross_mass
      fuselage_planform_area fuselage_cabin_area fuselage_length wing_root_chord
      bwb_rear_spar_percent_chord_root bwb_rear_spar_percent_chord_centerline t)
      (J_wing_bwb_aftbody_mass__wing_composite_fraction engine_num_fuselage_engines
      design_gross_mass fuselage_planform_area fuselage_cabin_area fuselage_length wing_root_chord
      bwb_rear_spar_percent_chord_root bwb_rear_spar_percent_chord_centerline)
      wing_composite_fraction :=
  ⟨d_fuselage_aftbody_mass__design_gross_mass _ _ _ _ _ _ _ _ h0 h1 h2,
    d_fuselage_aftbody_mass__fuselage_planform_area _ _ _ _ _ _ _ _ h0 h1 h2,
    d_fuselage_aftbody_mass__fuselage_cabin_area _ _ _ _ _ _ _ _ h0 h1 h2,
    d_fuselage_aftbody_mass__fuselage_length _ _ _ _ _ _ _ _ h0 h1 h2,
    d_fuselage_aftbody_mass__wing_root_chord _ _ _ _ _ _ _ _ h0 h1 h2,
    d_fuselage_aftbody_mass__bwb_rear_spar_percent_chord_root _ _ _ _ _ _ _ _ h0 h1 h2,
    d_fuselage_aftbody_mass__bwb_rear_spar_percent_chord_centerline _ _ _ _ _ _ _ _ h0 h1 h2,
    d_wing_bwb_aftbody_mass__design_gross_mass _ _ _ _ _ _ _ _ _ h0 h1 h2,
    d_wing_bwb_aftbody_mass__fuselage_planform_area _ _ _ _ _ _ _ _ _ h0 h1 h2,
    d_wing_bwb_aftbody_mass__fuselage_cabin_area _ _ _ _ _ _ _ _ _ h0 h1 h2,
    d_wing_bwb_aftbody_mass__fuselage_length _ _ _ _ _ _ _ _ _ h0 h1 h2,
    d_wing_bwb_aftbody_mass__wing_root_chord _ _ _ _ _ _ _ _ _ h0 h1 h2,
    d_wing_bwb_aftbody_mass__bwb_rear_spar_percent_chord_root _ _ _ _ _ _ _ _ _ h0 h1 h2,
    d_wing_bwb_aftbody_mass__bwb_rear_spar_percent_chord_centerline _ _ _ _ _ _ _ _ _ h0 h1 h2,
    d_wing_bwb_aftbody_mass__wing_composite_fraction _ _ _ _ _ _ _ _ _ h0 h1 h2⟩

example : ∃ engine_num_fuselage_engines design_gross_mass fuselage_planform_area
      fuselage_cabin_area fuselage_length wing_root_chord bwb_rear_spar_percent_chord_root
      bwb_rear_spar_percent_chord_centerline wing_composite_fraction : ℝ,
      0 < design_gross_mass ∧
      1 - bwb_rear_spar_percent_chord_centerline ≠ 0 ∧
      0 < fuselage_length :=
  ⟨0, 1, 0, 0, 1, 0, 0, 0, 0, by comp_example, by comp_example, by comp_example⟩

end Verif.Comp.MassFlopsBasedFuselage.BWBAftBodyMass_brief

namespace Verif.Comp.MassFlopsBasedFuselage.BWBAftBodyMass_otherverbosity
open Real

/-- aviary/subsystems/mass/flops_based/fuselage.py:269 -/
noncomputable def aftbody_area (fuselage_planform_area fuselage_cabin_area : ℝ) : ℝ :=
  fuselage_planform_area - fuselage_cabin_area

/-- aviary/subsystems/mass/flops_based/fuselage.py:270 -/
noncomputable def aftbody_tr (fuselage_length wing_root_chord bwb_rear_spar_percent_chord_root bwb_rear_spar_percent_chord_centerline : ℝ) : ℝ :=
  ((1 - bwb_rear_spar_percent_chord_root) * wing_root_chord) / ((1 -
    bwb_rear_spar_percent_chord_centerline) * fuselage_length)

/-- aviary/subsystems/mass/flops_based/fuselage.py:273 -/
noncomputable def aftbody_weight (engine_num_fuselage_engines design_gross_mass fuselage_planform_area fuselage_cabin_area fuselage_length wing_root_chord bwb_rear_spar_percent_chord_root bwb_rear_spar_percent_chord_centerline : ℝ) : ℝ :=
  ((((1 + ((1 / 20) * engine_num_fuselage_engines)) * (53 / 100)) * (aftbody_area
    fuselage_planform_area fuselage_cabin_area)) * (design_gross_mass ^ ((1 / 5) : ℝ))) * ((1 /
    2) + (aftbody_tr fuselage_length wing_root_chord bwb_rear_spar_percent_chord_root
    bwb_rear_spar_percent_chord_centerline))

/-- aviary/subsystems/mass/flops_based/fuselage.py:280 -/
noncomputable def aftbody_weight_adjusted (engine_num_fuselage_engines design_gross_mass fuselage_planform_area fuselage_cabin_area fuselage_length wing_root_chord bwb_rear_spar_percent_chord_root bwb_rear_spar_percent_chord_centerline wing_composite_fraction : ℝ) : ℝ :=
  (aftbody_weight engine_num_fuselage_engines design_gross_mass fuselage_planform_area
    fuselage_cabin_area fuselage_length wing_root_chord bwb_rear_spar_percent_chord_root
    bwb_rear_spar_percent_chord_centerline) * (1 - ((17 / 100) * wing_composite_fraction))

/-- aviary/subsystems/mass/flops_based/fuselage.py:294 -/
noncomputable def fac (wing_composite_fraction : ℝ) : ℝ :=
  1 - ((17 / 100) * wing_composite_fraction)

/-- aviary/subsystems/mass/flops_based/fuselage.py:331 -/
noncomputable def daftbody_tr_droot_chord (fuselage_length bwb_rear_spar_percent_chord_root bwb_rear_spar_percent_chord_centerline : ℝ) : ℝ :=
  (1 - bwb_rear_spar_percent_chord_root) / ((1 - bwb_rear_spar_percent_chord_centerline) *
    fuselage_length)

/-- aviary/subsystems/mass/flops_based/fuselage.py:344 -/
noncomputable def daftbody_tr_dlength (fuselage_length wing_root_chord bwb_rear_spar_percent_chord_root bwb_rear_spar_percent_chord_centerline : ℝ) : ℝ :=
  (-((1 - bwb_rear_spar_percent_chord_root) * wing_root_chord)) / ((1 -
    bwb_rear_spar_percent_chord_centerline) * (fuselage_length ^ 2))

/-- aviary/subsystems/mass/flops_based/fuselage.py:357 -/
noncomputable def daftbody_tr_drspc (fuselage_length wing_root_chord bwb_rear_spar_percent_chord_centerline : ℝ) : ℝ :=
  ((-1) * wing_root_chord) / ((1 - bwb_rear_spar_percent_chord_centerline) * fuselage_length)

/-- aviary/subsystems/mass/flops_based/fuselage.py:370 -/
noncomputable def daftbody_tr_drspcc (fuselage_length wing_root_chord bwb_rear_spar_percent_chord_root bwb_rear_spar_percent_chord_centerline : ℝ) : ℝ :=
  ((1 - bwb_rear_spar_percent_chord_root) * wing_root_chord) / (((1 -
    bwb_rear_spar_percent_chord_centerline) ^ 2) * fuselage_length)

/-- Output `fuselage_aftbody_mass` of `BWBAftBodyMass.compute`, aviary/subsystems/mass/flops_based/fuselage.py:281 -/
noncomputable def out_fuselage_aftbody_mass (engine_num_fuselage_engines design_gross_mass fuselage_planform_area fuselage_cabin_area fuselage_length wing_root_chord bwb_rear_spar_percent_chord_root bwb_rear_spar_percent_chord_centerline : ℝ) : ℝ :=
  aftbody_weight engine_num_fuselage_engines design_gross_mass fuselage_planform_area
    fuselage_cabin_area fuselage_length wing_root_chord bwb_rear_spar_percent_chord_root
    bwb_rear_spar_percent_chord_centerline

/-- Output `wing_bwb_aftbody_mass` of `BWBAftBodyMass.compute`, aviary/subsystems/mass/flops_based/fuselage.py:282 -/
noncomputable def out_wing_bwb_aftbody_mass (engine_num_fuselage_engines design_gross_mass fuselage_planform_area fuselage_cabin_area fuselage_length wing_root_chord bwb_rear_spar_percent_chord_root bwb_rear_spar_percent_chord_centerline wing_composite_fraction : ℝ) : ℝ :=
  aftbody_weight_adjusted engine_num_fuselage_engines design_gross_mass fuselage_planform_area
    fuselage_cabin_area fuselage_length wing_root_chord bwb_rear_spar_percent_chord_root
    bwb_rear_spar_percent_chord_centerline wing_composite_fraction

/-- Partial of `fuselage_aftbody_mass` with respect to `design_gross_mass` as set by `BWBAftBodyMass`, aviary/subsystems/mass/flops_based/fuselage.py:308 -/
noncomputable def J_fuselage_aftbody_mass__design_gross_mass (engine_num_fuselage_engines design_gross_mass fuselage_planform_area fuselage_cabin_area fuselage_length wing_root_chord bwb_rear_spar_percent_chord_root bwb_rear_spar_percent_chord_centerline : ℝ) : ℝ :=
  (((((1 / 5) * (1 + ((1 / 20) * engine_num_fuselage_engines))) * (53 / 100)) * (aftbody_area
    fuselage_planform_area fuselage_cabin_area)) * (design_gross_mass ^ ((-(4 / 5)) : ℝ))) * ((1
    / 2) + (aftbody_tr fuselage_length wing_root_chord bwb_rear_spar_percent_chord_root
    bwb_rear_spar_percent_chord_centerline))

/-- Partial of `wing_bwb_aftbody_mass` with respect to `design_gross_mass` as set by `BWBAftBodyMass`, aviary/subsystems/mass/flops_based/fuselage.py:316 -/
noncomputable def J_wing_bwb_aftbody_mass__design_gross_mass (engine_num_fuselage_engines design_gross_mass fuselage_planform_area fuselage_cabin_area fuselage_length wing_root_chord bwb_rear_spar_percent_chord_root bwb_rear_spar_percent_chord_centerline wing_composite_fraction : ℝ) : ℝ :=
  ((((((1 / 5) * (1 + ((1 / 20) * engine_num_fuselage_engines))) * (53 / 100)) * (aftbody_area
    fuselage_planform_area fuselage_cabin_area)) * (design_gross_mass ^ ((-(4 / 5)) : ℝ))) * ((1
    / 2) + (aftbody_tr fuselage_length wing_root_chord bwb_rear_spar_percent_chord_root
    bwb_rear_spar_percent_chord_centerline))) * (fac wing_composite_fraction)

/-- Partial of `fuselage_aftbody_mass` with respect to `fuselage_planform_area` as set by `BWBAftBodyMass`, aviary/subsystems/mass/flops_based/fuselage.py:319 -/
noncomputable def J_fuselage_aftbody_mass__fuselage_planform_area (engine_num_fuselage_engines design_gross_mass fuselage_length wing_root_chord bwb_rear_spar_percent_chord_root bwb_rear_spar_percent_chord_centerline : ℝ) : ℝ :=
  (((1 + ((1 / 20) * engine_num_fuselage_engines)) * (53 / 100)) * (design_gross_mass ^ ((1 / 5)
    : ℝ))) * ((1 / 2) + (aftbody_tr fuselage_length wing_root_chord
    bwb_rear_spar_percent_chord_root bwb_rear_spar_percent_chord_centerline))

/-- Partial of `wing_bwb_aftbody_mass` with respect to `fuselage_planform_area` as set by `BWBAftBodyMass`, aviary/subsystems/mass/flops_based/fuselage.py:322 -/
noncomputable def J_wing_bwb_aftbody_mass__fuselage_planform_area (engine_num_fuselage_engines design_gross_mass fuselage_length wing_root_chord bwb_rear_spar_percent_chord_root bwb_rear_spar_percent_chord_centerline wing_composite_fraction : ℝ) : ℝ :=
  ((((1 + ((1 / 20) * engine_num_fuselage_engines)) * (53 / 100)) * (design_gross_mass ^ ((1 /
    5) : ℝ))) * ((1 / 2) + (aftbody_tr fuselage_length wing_root_chord
    bwb_rear_spar_percent_chord_root bwb_rear_spar_percent_chord_centerline))) * (fac
    wing_composite_fraction)

/-- Partial of `fuselage_aftbody_mass` with respect to `fuselage_cabin_area` as set by `BWBAftBodyMass`, aviary/subsystems/mass/flops_based/fuselage.py:325 -/
noncomputable def J_fuselage_aftbody_mass__fuselage_cabin_area (engine_num_fuselage_engines design_gross_mass fuselage_length wing_root_chord bwb_rear_spar_percent_chord_root bwb_rear_spar_percent_chord_centerline : ℝ) : ℝ :=
  (((-(1 + ((1 / 20) * engine_num_fuselage_engines))) * (53 / 100)) * (design_gross_mass ^ ((1 /
    5) : ℝ))) * ((1 / 2) + (aftbody_tr fuselage_length wing_root_chord
    bwb_rear_spar_percent_chord_root bwb_rear_spar_percent_chord_centerline))

/-- Partial of `wing_bwb_aftbody_mass` with respect to `fuselage_cabin_area` as set by `BWBAftBodyMass`, aviary/subsystems/mass/flops_based/fuselage.py:328 -/
noncomputable def J_wing_bwb_aftbody_mass__fuselage_cabin_area (engine_num_fuselage_engines design_gross_mass fuselage_length wing_root_chord bwb_rear_spar_percent_chord_root bwb_rear_spar_percent_chord_centerline wing_composite_fraction : ℝ) : ℝ :=
  ((((-(1 + ((1 / 20) * engine_num_fuselage_engines))) * (53 / 100)) * (design_gross_mass ^ ((1
    / 5) : ℝ))) * ((1 / 2) + (aftbody_tr fuselage_length wing_root_chord
    bwb_rear_spar_percent_chord_root bwb_rear_spar_percent_chord_centerline))) * (fac
    wing_composite_fraction)

/-- Partial of `fuselage_aftbody_mass` with respect to `wing_root_chord` as set by `BWBAftBodyMass`, aviary/subsystems/mass/flops_based/fuselage.py:334 -/
noncomputable def J_fuselage_aftbody_mass__wing_root_chord (engine_num_fuselage_engines design_gross_mass fuselage_planform_area fuselage_cabin_area fuselage_length bwb_rear_spar_percent_chord_root bwb_rear_spar_percent_chord_centerline : ℝ) : ℝ :=
  ((((1 + ((1 / 20) * engine_num_fuselage_engines)) * (53 / 100)) * (aftbody_area
    fuselage_planform_area fuselage_cabin_area)) * (design_gross_mass ^ ((1 / 5) : ℝ))) *
    (daftbody_tr_droot_chord fuselage_length bwb_rear_spar_percent_chord_root
    bwb_rear_spar_percent_chord_centerline)

/-- Partial of `wing_bwb_aftbody_mass` with respect to `wing_root_chord` as set by `BWBAftBodyMass`, aviary/subsystems/mass/flops_based/fuselage.py:341 -/
noncomputable def J_wing_bwb_aftbody_mass__wing_root_chord (engine_num_fuselage_engines design_gross_mass fuselage_planform_area fuselage_cabin_area fuselage_length bwb_rear_spar_percent_chord_root bwb_rear_spar_percent_chord_centerline wing_composite_fraction : ℝ) : ℝ :=
  (((((1 + ((1 / 20) * engine_num_fuselage_engines)) * (53 / 100)) * (aftbody_area
    fuselage_planform_area fuselage_cabin_area)) * (design_gross_mass ^ ((1 / 5) : ℝ))) *
    (daftbody_tr_droot_chord fuselage_length bwb_rear_spar_percent_chord_root
    bwb_rear_spar_percent_chord_centerline)) * (fac wing_composite_fraction)

/-- Partial of `fuselage_aftbody_mass` with respect to `fuselage_length` as set by `BWBAftBodyMass`, aviary/subsystems/mass/flops_based/fuselage.py:347 -/
noncomputable def J_fuselage_aftbody_mass__fuselage_length (engine_num_fuselage_engines design_gross_mass fuselage_planform_area fuselage_cabin_area fuselage_length wing_root_chord bwb_rear_spar_percent_chord_root bwb_rear_spar_percent_chord_centerline : ℝ) : ℝ :=
  ((((1 + ((1 / 20) * engine_num_fuselage_engines)) * (53 / 100)) * (aftbody_area
    fuselage_planform_area fuselage_cabin_area)) * (design_gross_mass ^ ((1 / 5) : ℝ))) *
    (daftbody_tr_dlength fuselage_length wing_root_chord bwb_rear_spar_percent_chord_root
    bwb_rear_spar_percent_chord_centerline)

/-- Partial of `wing_bwb_aftbody_mass` with respect to `fuselage_length` as set by `BWBAftBodyMass`, aviary/subsystems/mass/flops_based/fuselage.py:354 -/
noncomputable def J_wing_bwb_aftbody_mass__fuselage_length (engine_num_fuselage_engines design_gross_mass fuselage_planform_area fuselage_cabin_area fuselage_length wing_root_chord bwb_rear_spar_percent_chord_root bwb_rear_spar_percent_chord_centerline wing_composite_fraction : ℝ) : ℝ :=
  (((((1 + ((1 / 20) * engine_num_fuselage_engines)) * (53 / 100)) * (aftbody_area
    fuselage_planform_area fuselage_cabin_area)) * (design_gross_mass ^ ((1 / 5) : ℝ))) *
    (daftbody_tr_dlength fuselage_length wing_root_chord bwb_rear_spar_percent_chord_root
    bwb_rear_spar_percent_chord_centerline)) * (fac wing_composite_fraction)

/-- Partial of `fuselage_aftbody_mass` with respect to `bwb_rear_spar_percent_chord_root` as set by `BWBAftBodyMass`, aviary/subsystems/mass/flops_based/fuselage.py:360 -/
noncomputable def J_fuselage_aftbody_mass__bwb_rear_spar_percent_chord_root (engine_num_fuselage_engines design_gross_mass fuselage_planform_area fuselage_cabin_area fuselage_length wing_root_chord bwb_rear_spar_percent_chord_centerline : ℝ) : ℝ :=
  ((((1 + ((1 / 20) * engine_num_fuselage_engines)) * (53 / 100)) * (aftbody_area
    fuselage_planform_area fuselage_cabin_area)) * (design_gross_mass ^ ((1 / 5) : ℝ))) *
    (daftbody_tr_drspc fuselage_length wing_root_chord bwb_rear_spar_percent_chord_centerline)

/-- Partial of `wing_bwb_aftbody_mass` with respect to `bwb_rear_spar_percent_chord_root` as set by `BWBAftBodyMass`, aviary/subsystems/mass/flops_based/fuselage.py:367 -/
noncomputable def J_wing_bwb_aftbody_mass__bwb_rear_spar_percent_chord_root (engine_num_fuselage_engines design_gross_mass fuselage_planform_area fuselage_cabin_area fuselage_length wing_root_chord bwb_rear_spar_percent_chord_centerline wing_composite_fraction : ℝ) : ℝ :=
  (((((1 + ((1 / 20) * engine_num_fuselage_engines)) * (53 / 100)) * (aftbody_area
    fuselage_planform_area fuselage_cabin_area)) * (design_gross_mass ^ ((1 / 5) : ℝ))) *
    (daftbody_tr_drspc fuselage_length wing_root_chord bwb_rear_spar_percent_chord_centerline))
    * (fac wing_composite_fraction)

/-- Partial of `fuselage_aftbody_mass` with respect to `bwb_rear_spar_percent_chord_centerline` as set by `BWBAftBodyMass`, aviary/subsystems/mass/flops_based/fuselage.py:373 -/
noncomputable def J_fuselage_aftbody_mass__bwb_rear_spar_percent_chord_centerline (engine_num_fuselage_engines design_gross_mass fuselage_planform_area fuselage_cabin_area fuselage_length wing_root_chord bwb_rear_spar_percent_chord_root bwb_rear_spar_percent_chord_centerline : ℝ) : ℝ :=
  ((((1 + ((1 / 20) * engine_num_fuselage_engines)) * (53 / 100)) * (aftbody_area
    fuselage_planform_area fuselage_cabin_area)) * (design_gross_mass ^ ((1 / 5) : ℝ))) *
    (daftbody_tr_drspcc fuselage_length wing_root_chord bwb_rear_spar_percent_chord_root
    bwb_rear_spar_percent_chord_centerline)

/-- Partial of `wing_bwb_aftbody_mass` with respect to `bwb_rear_spar_percent_chord_centerline` as set by `BWBAftBodyMass`, aviary/subsystems/mass/flops_based/fuselage.py:380 -/
noncomputable def J_wing_bwb_aftbody_mass__bwb_rear_spar_percent_chord_centerline (engine_num_fuselage_engines design_gross_mass fuselage_planform_area fuselage_cabin_area fuselage_length wing_root_chord bwb_rear_spar_percent_chord_root bwb_rear_spar_percent_chord_centerline wing_composite_fraction : ℝ) : ℝ :=
  (((((1 + ((1 / 20) * engine_num_fuselage_engines)) * (53 / 100)) * (aftbody_area
    fuselage_planform_area fuselage_cabin_area)) * (design_gross_mass ^ ((1 / 5) : ℝ))) *
    (daftbody_tr_drspcc fuselage_length wing_root_chord bwb_rear_spar_percent_chord_root
    bwb_rear_spar_percent_chord_centerline)) * (fac wing_composite_fraction)

/-- Partial of `wing_bwb_aftbody_mass` with respect to `wing_composite_fraction` as set by `BWBAftBodyMass`, aviary/subsystems/mass/flops_based/fuselage.py:383 -/
noncomputable def J_wing_bwb_aftbody_mass__wing_composite_fraction (engine_num_fuselage_engines design_gross_mass fuselage_planform_area fuselage_cabin_area fuselage_length wing_root_chord bwb_rear_spar_percent_chord_root bwb_rear_spar_percent_chord_centerline : ℝ) : ℝ :=
  (-(17 / 100)) * (aftbody_weight engine_num_fuselage_engines design_gross_mass
    fuselage_planform_area fuselage_cabin_area fuselage_length wing_root_chord
    bwb_rear_spar_percent_chord_root bwb_rear_spar_percent_chord_centerline)

theorem d_fuselage_aftbody_mass__design_gross_mass (engine_num_fuselage_engines design_gross_mass
    fuselage_planform_area fuselage_cabin_area fuselage_length wing_root_chord
    bwb_rear_spar_percent_chord_root bwb_rear_spar_percent_chord_centerline : ℝ) (h0 : 0 <
    design_gross_mass) (h1 : 1 - bwb_rear_spar_percent_chord_centerline ≠ 0) (h2 : 0 <
    fuselage_length) :
    HasDerivAt (fun t => out_fuselage_aftbody_mass engine_num_fuselage_engines t fuselage_planform_area fuselage_cabin_area fuselage_length wing_root_chord bwb_rear_spar_percent_chord_root bwb_rear_spar_percent_chord_centerline) (J_fuselage_aftbody_mass__design_gross_mass engine_num_fuselage_engines design_gross_mass fuselage_planform_area fuselage_cabin_area fuselage_length wing_root_chord bwb_rear_spar_percent_chord_root bwb_rear_spar_percent_chord_centerline) design_gross_mass := by
  have e0 : ∀ x : ℝ, 0 < x → x ^ ((-(4 / 5)) : ℝ) = x ^ ((1 / 5) : ℝ) / x ^ 1 := fun x hx => rpow_down hx 1 (by norm_num)
  simp only [out_fuselage_aftbody_mass, J_fuselage_aftbody_mass__design_gross_mass, aftbody_weight, aftbody_tr, aftbody_area]
  (apply hasDerivAt_of_eq; on_goal 1 => (repeat' comp_step))
  all_goals try comp_side
  all_goals try simp (disch := first | assumption | positivity) only [e0]
  all_goals try simp only [mul_zero, zero_mul, add_zero, zero_add, sub_zero, zero_sub, mul_one, one_mul]
  all_goals try push_cast
  all_goals comp_eq

theorem d_fuselage_aftbody_mass__fuselage_planform_area (engine_num_fuselage_engines
    design_gross_mass fuselage_planform_area fuselage_cabin_area fuselage_length wing_root_chord
    bwb_rear_spar_percent_chord_root bwb_rear_spar_percent_chord_centerline : ℝ) (h0 : 0 <
    design_gross_mass) (h1 : 1 - bwb_rear_spar_percent_chord_centerline ≠ 0) (h2 : 0 <
    fuselage_length) :
    HasDerivAt (fun t => out_fuselage_aftbody_mass engine_num_fuselage_engines design_gross_mass t fuselage_cabin_area fuselage_length wing_root_chord bwb_rear_spar_percent_chord_root bwb_rear_spar_percent_chord_centerline) (J_fuselage_aftbody_mass__fuselage_planform_area engine_num_fuselage_engines design_gross_mass fuselage_length wing_root_chord bwb_rear_spar_percent_chord_root bwb_rear_spar_percent_chord_centerline) fuselage_planform_area := by
  simp only [out_fuselage_aftbody_mass, J_fuselage_aftbody_mass__fuselage_planform_area, aftbody_weight, aftbody_tr, aftbody_area]
  (apply hasDerivAt_of_eq; on_goal 1 => (repeat' comp_step))
  all_goals try comp_side
  all_goals try simp only [mul_zero, zero_mul, add_zero, zero_add, sub_zero, zero_sub, mul_one, one_mul]
  all_goals try push_cast
  all_goals comp_eq

theorem d_fuselage_aftbody_mass__fuselage_cabin_area (engine_num_fuselage_engines
    design_gross_mass fuselage_planform_area fuselage_cabin_area fuselage_length wing_root_chord
    bwb_rear_spar_percent_chord_root bwb_rear_spar_percent_chord_centerline : ℝ) (h0 : 0 <
    design_gross_mass) (h1 : 1 - bwb_rear_spar_percent_chord_centerline ≠ 0) (h2 : 0 <
    fuselage_length) :
    HasDerivAt (fun t => out_fuselage_aftbody_mass engine_num_fuselage_engines design_gross_mass fuselage_planform_area t fuselage_length wing_root_chord bwb_rear_spar_percent_chord_root bwb_rear_spar_percent_chord_centerline) (J_fuselage_aftbody_mass__fuselage_cabin_area engine_num_fuselage_engines design_gross_mass fuselage_length wing_root_chord bwb_rear_spar_percent_chord_root bwb_rear_spar_percent_chord_centerline) fuselage_cabin_area := by
  simp only [out_fuselage_aftbody_mass, J_fuselage_aftbody_mass__fuselage_cabin_area, aftbody_weight, aftbody_tr, aftbody_area]
  (apply hasDerivAt_of_eq; on_goal 1 => (repeat' comp_step))
  all_goals try comp_side
  all_goals try simp only [mul_zero, zero_mul, add_zero, zero_add, sub_zero, zero_sub, mul_one, one_mul]
  all_goals try push_cast
  all_goals comp_eq

theorem d_fuselage_aftbody_mass__fuselage_length (engine_num_fuselage_engines design_gross_mass
    fuselage_planform_area fuselage_cabin_area fuselage_length wing_root_chord
    bwb_rear_spar_percent_chord_root bwb_rear_spar_percent_chord_centerline : ℝ) (h0 : 0 <
    design_gross_mass) (h1 : 1 - bwb_rear_spar_percent_chord_centerline ≠ 0) (h2 : 0 <
    fuselage_length) :
    HasDerivAt (fun t => out_fuselage_aftbody_mass engine_num_fuselage_engines design_gross_mass fuselage_planform_area fuselage_cabin_area t wing_root_chord bwb_rear_spar_percent_chord_root bwb_rear_spar_percent_chord_centerline) (J_fuselage_aftbody_mass__fuselage_length engine_num_fuselage_engines design_gross_mass fuselage_planform_area fuselage_cabin_area fuselage_length wing_root_chord bwb_rear_spar_percent_chord_root bwb_rear_spar_percent_chord_centerline) fuselage_length := by
  simp only [out_fuselage_aftbody_mass, J_fuselage_aftbody_mass__fuselage_length, daftbody_tr_dlength, aftbody_weight, aftbody_tr, aftbody_area]
  (apply hasDerivAt_of_eq; on_goal 1 => (repeat' comp_step))
  all_goals try comp_side
  all_goals try simp only [mul_zero, zero_mul, add_zero, zero_add, sub_zero, zero_sub, mul_one, one_mul]
  all_goals try push_cast
  all_goals comp_eq

theorem d_fuselage_aftbody_mass__wing_root_chord (engine_num_fuselage_engines design_gross_mass
    fuselage_planform_area fuselage_cabin_area fuselage_length wing_root_chord
    bwb_rear_spar_percent_chord_root bwb_rear_spar_percent_chord_centerline : ℝ) (h0 : 0 <
    design_gross_mass) (h1 : 1 - bwb_rear_spar_percent_chord_centerline ≠ 0) (h2 : 0 <
    fuselage_length) :
    HasDerivAt (fun t => out_fuselage_aftbody_mass engine_num_fuselage_engines design_gross_mass fuselage_planform_area fuselage_cabin_area fuselage_length t bwb_rear_spar_percent_chord_root bwb_rear_spar_percent_chord_centerline) (J_fuselage_aftbody_mass__wing_root_chord engine_num_fuselage_engines design_gross_mass fuselage_planform_area fuselage_cabin_area fuselage_length bwb_rear_spar_percent_chord_root bwb_rear_spar_percent_chord_centerline) wing_root_chord := by
  simp only [out_fuselage_aftbody_mass, J_fuselage_aftbody_mass__wing_root_chord, daftbody_tr_droot_chord, aftbody_weight, aftbody_tr, aftbody_area]
  (apply hasDerivAt_of_eq; on_goal 1 => (repeat' comp_step))
  all_goals try comp_side
  all_goals try simp only [mul_zero, zero_mul, add_zero, zero_add, sub_zero, zero_sub, mul_one, one_mul]
  all_goals try push_cast
  all_goals comp_eq

theorem d_fuselage_aftbody_mass__bwb_rear_spar_percent_chord_root (engine_num_fuselage_engines
    design_gross_mass fuselage_planform_area fuselage_cabin_area fuselage_length wing_root_chord
    bwb_rear_spar_percent_chord_root bwb_rear_spar_percent_chord_centerline : ℝ) (h0 : 0 <
    design_gross_mass) (h1 : 1 - bwb_rear_spar_percent_chord_centerline ≠ 0) (h2 : 0 <
    fuselage_length) :
    HasDerivAt (fun t => out_fuselage_aftbody_mass engine_num_fuselage_engines design_gross_mass fuselage_planform_area fuselage_cabin_area fuselage_length wing_root_chord t bwb_rear_spar_percent_chord_centerline) (J_fuselage_aftbody_mass__bwb_rear_spar_percent_chord_root engine_num_fuselage_engines design_gross_mass fuselage_planform_area fuselage_cabin_area fuselage_length wing_root_chord bwb_rear_spar_percent_chord_centerline) bwb_rear_spar_percent_chord_root := by
  simp only [out_fuselage_aftbody_mass, J_fuselage_aftbody_mass__bwb_rear_spar_percent_chord_root, daftbody_tr_drspc, aftbody_weight, aftbody_tr, aftbody_area]
  (apply hasDerivAt_of_eq; on_goal 1 => (repeat' comp_step))
  all_goals try comp_side
  all_goals try simp only [mul_zero, zero_mul, add_zero, zero_add, sub_zero, zero_sub, mul_one, one_mul]
  all_goals try push_cast
  all_goals comp_eq

theorem d_fuselage_aftbody_mass__bwb_rear_spar_percent_chord_centerline
    (engine_num_fuselage_engines design_gross_mass fuselage_planform_area fuselage_cabin_area
    fuselage_length wing_root_chord bwb_rear_spar_percent_chord_root
    bwb_rear_spar_percent_chord_centerline : ℝ) (h0 : 0 < design_gross_mass) (h1 : 1 -
    bwb_rear_spar_percent_chord_centerline ≠ 0) (h2 : 0 < fuselage_length) :
    HasDerivAt (fun t => out_fuselage_aftbody_mass engine_num_fuselage_engines design_gross_mass fuselage_planform_area fuselage_cabin_area fuselage_length wing_root_chord bwb_rear_spar_percent_chord_root t) (J_fuselage_aftbody_mass__bwb_rear_spar_percent_chord_centerline engine_num_fuselage_engines design_gross_mass fuselage_planform_area fuselage_cabin_area fuselage_length wing_root_chord bwb_rear_spar_percent_chord_root bwb_rear_spar_percent_chord_centerline) bwb_rear_spar_percent_chord_centerline := by
  simp only [out_fuselage_aftbody_mass, J_fuselage_aftbody_mass__bwb_rear_spar_percent_chord_centerline, daftbody_tr_drspcc, aftbody_weight, aftbody_tr, aftbody_area]
  (apply hasDerivAt_of_eq; on_goal 1 => (repeat' comp_step))
  all_goals try comp_side
  all_goals try simp only [mul_zero, zero_mul, add_zero, zero_add, sub_zero, zero_sub, mul_one, one_mul]
  all_goals try push_cast
  all_goals comp_eq

theorem d_wing_bwb_aftbody_mass__design_gross_mass (engine_num_fuselage_engines design_gross_mass
    fuselage_planform_area fuselage_cabin_area fuselage_length wing_root_chord
    bwb_rear_spar_percent_chord_root bwb_rear_spar_percent_chord_centerline
    wing_composite_fraction : ℝ) (h0 : 0 < design_gross_mass) (h1 : 1 -
    bwb_rear_spar_percent_chord_centerline ≠ 0) (h2 : 0 < fuselage_length) :
    HasDerivAt (fun t => out_wing_bwb_aftbody_mass engine_num_fuselage_engines t fuselage_planform_area fuselage_cabin_area fuselage_length wing_root_chord bwb_rear_spar_percent_chord_root bwb_rear_spar_percent_chord_centerline wing_composite_fraction) (J_wing_bwb_aftbody_mass__design_gross_mass engine_num_fuselage_engines design_gross_mass fuselage_planform_area fuselage_cabin_area fuselage_length wing_root_chord bwb_rear_spar_percent_chord_root bwb_rear_spar_percent_chord_centerline wing_composite_fraction) design_gross_mass := by
  have e0 : ∀ x : ℝ, 0 < x → x ^ ((-(4 / 5)) : ℝ) = x ^ ((1 / 5) : ℝ) / x ^ 1 := fun x hx => rpow_down hx 1 (by norm_num)
  simp only [out_wing_bwb_aftbody_mass, J_wing_bwb_aftbody_mass__design_gross_mass, fac, aftbody_weight_adjusted, aftbody_weight, aftbody_tr, aftbody_area]
  (apply hasDerivAt_of_eq; on_goal 1 => (repeat' comp_step))
  all_goals try comp_side
  all_goals try simp (disch := first | assumption | positivity) only [e0]
  all_goals try simp only [mul_zero, zero_mul, add_zero, zero_add, sub_zero, zero_sub, mul_one, one_mul]
  all_goals try push_cast
  all_goals comp_eq

theorem d_wing_bwb_aftbody_mass__fuselage_planform_area (engine_num_fuselage_engines
    design_gross_mass fuselage_planform_area fuselage_cabin_area fuselage_length wing_root_chord
    bwb_rear_spar_percent_chord_root bwb_rear_spar_percent_chord_centerline
    wing_composite_fraction : ℝ) (h0 : 0 < design_gross_mass) (h1 : 1 -
    bwb_rear_spar_percent_chord_centerline ≠ 0) (h2 : 0 < fuselage_length) :
    HasDerivAt (fun t => out_wing_bwb_aftbody_mass engine_num_fuselage_engines design_gross_mass t fuselage_cabin_area fuselage_length wing_root_chord bwb_rear_spar_percent_chord_root bwb_rear_spar_percent_chord_centerline wing_composite_fraction) (J_wing_bwb_aftbody_mass__fuselage_planform_area engine_num_fuselage_engines design_gross_mass fuselage_length wing_root_chord bwb_rear_spar_percent_chord_root bwb_rear_spar_percent_chord_centerline wing_composite_fraction) fuselage_planform_area := by
  simp only [out_wing_bwb_aftbody_mass, J_wing_bwb_aftbody_mass__fuselage_planform_area, fac, aftbody_weight_adjusted, aftbody_weight, aftbody_tr, aftbody_area]
  (apply hasDerivAt_of_eq; on_goal 1 => (repeat' comp_step))
  all_goals try comp_side
  all_goals try simp only [mul_zero, zero_mul, add_zero, zero_add, sub_zero, zero_sub, mul_one, one_mul]
  all_goals try push_cast
  all_goals comp_eq

theorem d_wing_bwb_aftbody_mass__fuselage_cabin_area (engine_num_fuselage_engines
    design_gross_mass fuselage_planform_area fuselage_cabin_area fuselage_length wing_root_chord
    bwb_rear_spar_percent_chord_root bwb_rear_spar_percent_chord_centerline
    wing_composite_fraction : ℝ) (h0 : 0 < design_gross_mass) (h1 : 1 -
    bwb_rear_spar_percent_chord_centerline ≠ 0) (h2 : 0 < fuselage_length) :
    HasDerivAt (fun t => out_wing_bwb_aftbody_mass engine_num_fuselage_engines design_gross_mass fuselage_planform_area t fuselage_length wing_root_chord bwb_rear_spar_percent_chord_root bwb_rear_spar_percent_chord_centerline wing_composite_fraction) (J_wing_bwb_aftbody_mass__fuselage_cabin_area engine_num_fuselage_engines design_gross_mass fuselage_length wing_root_chord bwb_rear_spar_percent_chord_root bwb_rear_spar_percent_chord_centerline wing_composite_fraction) fuselage_cabin_area := by
  simp only [out_wing_bwb_aftbody_mass, J_wing_bwb_aftbody_mass__fuselage_cabin_area, fac, aftbody_weight_adjusted, aftbody_weight, aftbody_tr, aftbody_area]
  (apply hasDerivAt_of_eq; on_goal 1 => (repeat' comp_step))
  all_goals try comp_side
  all_goals try simp only [mul_zero, zero_mul, add_zero, zero_add, sub_zero, zero_sub, mul_one, one_mul]
  all_goals try push_cast
  all_goals comp_eq

theorem d_wing_bwb_aftbody_mass__fuselage_length (engine_num_fuselage_engines design_gross_mass
    fuselage_planform_area fuselage_cabin_area fuselage_length wing_root_chord
    bwb_rear_spar_percent_chord_root bwb_rear_spar_percent_chord_centerline
    wing_composite_fraction : ℝ) (h0 : 0 < design_gross_mass) (h1 : 1 -
    bwb_rear_spar_percent_chord_centerline ≠ 0) (h2 : 0 < fuselage_length) :
    HasDerivAt (fun t => out_wing_bwb_aftbody_mass engine_num_fuselage_engines design_gross_mass fuselage_planform_area fuselage_cabin_area t wing_root_chord bwb_rear_spar_percent_chord_root bwb_rear_spar_percent_chord_centerline wing_composite_fraction) (J_wing_bwb_aftbody_mass__fuselage_length engine_num_fuselage_engines design_gross_mass fuselage_planform_area fuselage_cabin_area fuselage_length wing_root_chord bwb_rear_spar_percent_chord_root bwb_rear_spar_percent_chord_centerline wing_composite_fraction) fuselage_length := by
  simp only [out_wing_bwb_aftbody_mass, J_wing_bwb_aftbody_mass__fuselage_length, fac, daftbody_tr_dlength, aftbody_weight_adjusted, aftbody_weight, aftbody_tr, aftbody_area]
  (apply hasDerivAt_of_eq; on_goal 1 => (repeat' comp_step))
  all_goals try comp_side
  all_goals try simp only [mul_zero, zero_mul, add_zero, zero_add, sub_zero, zero_sub, mul_one, one_mul]
  all_goals try push_cast
  all_goals comp_eq

theorem d_wing_bwb_aftbody_mass__wing_root_chord (engine_num_fuselage_engines design_gross_mass
    fuselage_planform_area fuselage_cabin_area fuselage_length wing_root_chord
    bwb_rear_spar_percent_chord_root bwb_rear_spar_percent_chord_centerline
    wing_composite_fraction : ℝ) (h0 : 0 < design_gross_mass) (h1 : 1 -
    bwb_rear_spar_percent_chord_centerline ≠ 0) (h2 : 0 < fuselage_length) :
    HasDerivAt (fun t => out_wing_bwb_aftbody_mass engine_num_fuselage_engines design_gross_mass fuselage_planform_area fuselage_cabin_area fuselage_length t bwb_rear_spar_percent_chord_root bwb_rear_spar_percent_chord_centerline wing_composite_fraction) (J_wing_bwb_aftbody_mass__wing_root_chord engine_num_fuselage_engines design_gross_mass fuselage_planform_area fuselage_cabin_area fuselage_length bwb_rear_spar_percent_chord_root bwb_rear_spar_percent_chord_centerline wing_composite_fraction) wing_root_chord := by
  simp only [out_wing_bwb_aftbody_mass, J_wing_bwb_aftbody_mass__wing_root_chord, fac, daftbody_tr_droot_chord, aftbody_weight_adjusted, aftbody_weight, aftbody_tr, aftbody_area]
  (apply hasDerivAt_of_eq; on_goal 1 => (repeat' comp_step))
  all_goals try comp_side
  all_goals try simp only [mul_zero, zero_mul, add_zero, zero_add, sub_zero, zero_sub, mul_one, one_mul]
  all_goals try push_cast
  all_goals comp_eq

theorem d_wing_bwb_aftbody_mass__bwb_rear_spar_percent_chord_root (engine_num_fuselage_engines
    design_gross_mass fuselage_planform_area fuselage_cabin_area fuselage_length wing_root_chord
    bwb_rear_spar_percent_chord_root bwb_rear_spar_percent_chord_centerline
    wing_composite_fraction : ℝ) (h0 : 0 < design_gross_mass) (h1 : 1 -
    bwb_rear_spar_percent_chord_centerline ≠ 0) (h2 : 0 < fuselage_length) :
    HasDerivAt (fun t => out_wing_bwb_aftbody_mass engine_num_fuselage_engines design_gross_mass fuselage_planform_area fuselage_cabin_area fuselage_length wing_root_chord t bwb_rear_spar_percent_chord_centerline wing_composite_fraction) (J_wing_bwb_aftbody_mass__bwb_rear_spar_percent_chord_root engine_num_fuselage_engines design_gross_mass fuselage_planform_area fuselage_cabin_area fuselage_length wing_root_chord bwb_rear_spar_percent_chord_centerline wing_composite_fraction) bwb_rear_spar_percent_chord_root := by
  simp only [out_wing_bwb_aftbody_mass, J_wing_bwb_aftbody_mass__bwb_rear_spar_percent_chord_root, fac, daftbody_tr_drspc, aftbody_weight_adjusted, aftbody_weight, aftbody_tr, aftbody_area]
  (apply hasDerivAt_of_eq; on_goal 1 => (repeat' comp_step))
  all_goals try comp_side
  all_goals try simp only [mul_zero, zero_mul, add_zero, zero_add, sub_zero, zero_sub, mul_one, one_mul]
  all_goals try push_cast
  all_goals comp_eq

theorem d_wing_bwb_aftbody_mass__bwb_rear_spar_percent_chord_centerline
    (engine_num_fuselage_engines design_gross_mass fuselage_planform_area fuselage_cabin_area
    fuselage_length wing_root_chord bwb_rear_spar_percent_chord_root
    bwb_rear_spar_percent_chord_centerline wing_composite_fraction : ℝ) (h0 : 0 <
    design_gross_mass) (h1 : 1 - bwb_rear_spar_percent_chord_centerline ≠ 0) (h2 : 0 <
    fuselage_length) :
    HasDerivAt (fun t => out_wing_bwb_aftbody_mass engine_num_fuselage_engines design_gross_mass fuselage_planform_area fuselage_cabin_area fuselage_length wing_root_chord bwb_rear_spar_percent_chord_root t wing_composite_fraction) (J_wing_bwb_aftbody_mass__bwb_rear_spar_percent_chord_centerline engine_num_fuselage_engines design_gross_mass fuselage_planform_area fuselage_cabin_area fuselage_length wing_root_chord bwb_rear_spar_percent_chord_root bwb_rear_spar_percent_chord_centerline wing_composite_fraction) bwb_rear_spar_percent_chord_centerline := by
  simp only [out_wing_bwb_aftbody_mass, J_wing_bwb_aftbody_mass__bwb_rear_spar_percent_chord_centerline, fac, daftbody_tr_drspcc, aftbody_weight_adjusted, aftbody_weight, aftbody_tr, aftbody_area]
  (apply hasDerivAt_of_eq; on_goal 1 => (repeat' comp_step))
  all_goals try comp_side
  all_goals try simp only [mul_zero, zero_mul, add_zero, zero_add, sub_zero, zero_sub, mul_one, one_mul]
  all_goals try push_cast
  all_goals comp_eq

theorem d_wing_bwb_aftbody_mass__wing_composite_fraction (engine_num_fuselage_engines
    design_gross_mass fuselage_planform_area fuselage_cabin_area fuselage_length wing_root_chord
    bwb_rear_spar_percent_chord_root bwb_rear_spar_percent_chord_centerline
    wing_composite_fraction : ℝ) (h0 : 0 < design_gross_mass) (h1 : 1 -
    bwb_rear_spar_percent_chord_centerline ≠ 0) (h2 : 0 < fuselage_length) :
    HasDerivAt (fun t => out_wing_bwb_aftbody_mass engine_num_fuselage_engines design_gross_mass fuselage_planform_area fuselage_cabin_area fuselage_length wing_root_chord bwb_rear_spar_percent_chord_root bwb_rear_spar_percent_chord_centerline t) (J_wing_bwb_aftbody_mass__wing_composite_fraction engine_num_fuselage_engines design_gross_mass fuselage_planform_area fuselage_cabin_area fuselage_length wing_root_chord bwb_rear_spar_percent_chord_root bwb_rear_spar_percent_chord_centerline) wing_composite_fraction := by
  simp only [out_wing_bwb_aftbody_mass, J_wing_bwb_aftbody_mass__wing_composite_fraction, aftbody_weight_adjusted, aftbody_weight, aftbody_tr, aftbody_area]
  (apply hasDerivAt_of_eq; on_goal 1 => (repeat' comp_step))
  all_goals try comp_side
  all_goals try simp only [mul_zero, zero_mul, add_zero, zero_add, sub_zero, zero_sub, mul_one, one_mul]
  all_goals try push_cast
  all_goals comp_eq

/-- Every partial derivative set by `BWBAftBodyMass` is the derivative of its output. -/
theorem partials (engine_num_fuselage_engines design_gross_mass fuselage_planform_area
    fuselage_cabin_area fuselage_length wing_root_chord bwb_rear_spar_percent_chord_root
    bwb_rear_spar_percent_chord_centerline wing_composite_fraction : ℝ) (h0 : 0 <
    design_gross_mass) (h1 : 1 - bwb_rear_spar_percent_chord_centerline ≠ 0) (h2 : 0 <
    fuselage_length) :
    HasDerivAt (fun t => out_fuselage_aftbody_mass engine_num_fuselage_engines t
      fuselage_planform_area fuselage_cabin_area fuselage_length wing_root_chord
      bwb_rear_spar_percent_chord_root bwb_rear_spar_percent_chord_centerline)
      (J_fuselage_aftbody_mass__design_gross_mass engine_num_fuselage_engines design_gross_mass
      fuselage_planform_area fuselage_cabin_area fuselage_length wing_root_chord
      bwb_rear_spar_percent_chord_root bwb_rear_spar_percent_chord_centerline) design_gross_mass ∧
    HasDerivAt (fun t => out_fuselage_aftbody_mass engine_num_fuselage_engines design_gross_mass t
      fuselage_cabin_area fuselage_length wing_root_chord bwb_rear_spar_percent_chord_root
      bwb_rear_spar_percent_chord_centerline) (J_fuselage_aftbody_mass__fuselage_planform_area
      engine_num_fuselage_engines design_gross_mass fuselage_length wing_root_chord
      bwb_rear_spar_percent_chord_root bwb_rear_spar_percent_chord_centerline)
      fuselage_planform_area ∧
    HasDerivAt (fun t => out_fuselage_aftbody_mass engine_num_fuselage_engines design_gross_mass
      fuselage_planform_area t fuselage_length wing_root_chord bwb_rear_spar_percent_chord_root
      bwb_rear_spar_percent_chord_centerline) (J_fuselage_aftbody_mass__fuselage_cabin_area
      engine_num_fuselage_engines design_gross_mass fuselage_length wing_root_chord
      bwb_rear_spar_percent_chord_root bwb_rear_spar_percent_chord_centerline) fuselage_cabin_area ∧
    HasDerivAt (fun t => out_fuselage_aftbody_mass engine_num_fuselage_engines design_gross_mass
      fuselage_planform_area fuselage_cabin_area t wing_root_chord
      bwb_rear_spar_percent_chord_root bwb_rear_spar_percent_chord_centerline)
      (J_fuselage_aftbody_mass__fuselage_length engine_num_fuselage_engines design_gross_mass
      fuselage_planform_area fuselage_cabin_area fuselage_length wing_root_chord
      bwb_rear_spar_percent_chord_root bwb_rear_spar_percent_chord_centerline) fuselage_length ∧
    HasDerivAt (fun t => out_fuselage_aftbody_mass engine_num_fuselage_engines design_gross_mass
      fuselage_planform_area fuselage_cabin_area fuselage_length t
      bwb_rear_spar_percent_chord_root bwb_rear_spar_percent_chord_centerline)
      (J_fuselage_aftbody_mass__wing_root_chord engine_num_fuselage_engines design_gross_mass
      fuselage_planform_area fuselage_cabin_area fuselage_length bwb_rear_spar_percent_chord_root
      bwb_rear_spar_percent_chord_centerline) wing_root_chord ∧
    HasDerivAt (fun t => out_fuselage_aftbody_mass engine_num_fuselage_engines design_gross_mass
      fuselage_planform_area fuselage_cabin_area fuselage_length wing_root_chord t
      bwb_rear_spar_percent_chord_centerline)
      (J_fuselage_aftbody_mass__bwb_rear_spar_percent_chord_root engine_num_fuselage_engines
      design_gross_mass fuselage_planform_area fuselage_cabin_area fuselage_length wing_root_chord
      bwb_rear_spar_percent_chord_centerline) bwb_rear_spar_percent_chord_root ∧
    HasDerivAt (fun t => out_fuselage_aftbody_mass engine_num_fuselage_engines design_gross_mass
      fuselage_planform_area fuselage_cabin_area fuselage_length wing_root_chord
      bwb_rear_spar_percent_chord_root t)
      (J_fuselage_aftbody_mass__bwb_rear_spar_percent_chord_centerline engine_num_fuselage_engines
      design_gross_mass fuselage_planform_area fuselage_cabin_area fuselage_length wing_root_chord
      bwb_rear_spar_percent_chord_root bwb_rear_spar_percent_chord_centerline)
      bwb_rear_spar_percent_chord_centerline ∧
    HasDerivAt (fun t => out_wing_bwb_aftbody_mass engine_num_fuselage_engines t
      fuselage_planform_area fuselage_cabin_area fuselage_length wing_root_chord
      bwb_rear_spar_percent_chord_root bwb_rear_spar_percent_chord_centerline
      wing_composite_fraction) (J_wing_bwb_aftbody_mass__design_gross_mass
      engine_num_fuselage_engines design_gross_mass fuselage_planform_area fuselage_cabin_area
      fuselage_length wing_root_chord bwb_rear_spar_percent_chord_root
      bwb_rear_spar_percent_chord_centerline wing_composite_fraction) design_gross_mass ∧
    HasDerivAt (fun t => out_wing_bwb_aftbody_mass engine_num_fuselage_engines design_gross_mass t
      fuselage_cabin_area fuselage_length wing_root_chord bwb_rear_spar_percent_chord_root
      bwb_rear_spar_percent_chord_centerline wing_composite_fraction)
      (J_wing_bwb_aftbody_mass__fuselage_planform_area engine_num_fuselage_engines
      design_gross_mass fuselage_length wing_root_chord bwb_rear_spar_percent_chord_root
      bwb_rear_spar_percent_chord_centerline wing_composite_fraction) fuselage_planform_area ∧
    HasDerivAt (fun t => out_wing_bwb_aftbody_mass engine_num_fuselage_engines design_gross_mass
      fuselage_planform_area t fuselage_length wing_root_chord bwb_rear_spar_percent_chord_root
      bwb_rear_spar_percent_chord_centerline wing_composite_fraction)
      (J_wing_bwb_aftbody_mass__fuselage_cabin_area engine_num_fuselage_engines design_gross_mass
      fuselage_length wing_root_chord bwb_rear_spar_percent_chord_root
      bwb_rear_spar_percent_chord_centerline wing_composite_fraction) fuselage_cabin_area ∧
    HasDerivAt (fun t => out_wing_bwb_aftbody_mass engine_num_fuselage_engines design_gross_mass
      fuselage_planform_area fuselage_cabin_area t wing_root_chord
      bwb_rear_spar_percent_chord_root bwb_rear_spar_percent_chord_centerline
      wing_composite_fraction) (J_wing_bwb_aftbody_mass__fuselage_length
      engine_num_fuselage_engines design_gross_mass fuselage_planform_area fuselage_cabin_area
      fuselage_length wing_root_chord bwb_rear_spar_percent_chord_root
      bwb_rear_spar_percent_chord_centerline wing_composite_fraction) fuselage_length ∧
    HasDerivAt (fun t => out_wing_bwb_aftbody_mass engine_num_fuselage_engines design_gross_mass
      fuselage_planform_area fuselage_cabin_area fuselage_length t
      bwb_rear_spar_percent_chord_root bwb_rear_spar_percent_chord_centerline
      wing_composite_fraction) (J_wing_bwb_aftbody_mass__wing_root_chord
      engine_num_fuselage_engines design_gross_mass fuselage_planform_area fuselage_cabin_area
      fuselage_length bwb_rear_spar_percent_chord_root bwb_rear_spar_percent_chord_centerline
      wing_composite_fraction) wing_root_chord ∧
    HasDerivAt (fun t => out_wing_bwb_aftbody_mass engine_num_fuselage_engines design_gross_mass
      fuselage_planform_area fuselage_cabin_area fuselage_length wing_root_chord t
      bwb_rear_spar_percent_chord_centerline wing_composite_fraction)
      (J_wing_bwb_aftbody_mass__bwb_rear_spar_percent_chord_root engine_num_fuselage_engines
      design_gross_mass fuselage_planform_area fuselage_cabin_area fuselage_length wing_root_chord
      bwb_rear_spar_percent_chord_centerline wing_composite_fraction)
      bwb_rear_spar_percent_chord_root ∧
    HasDerivAt (fun t => out_wing_bwb_aftbody_mass engine_num_fuselage_engines design_gross_mass
      fuselage_planform_area fuselage_cabin_area fuselage_length wing_root_chord
      bwb_rear_spar_percent_chord_root t wing_composite_fraction)
      (J_wing_bwb_aftbody_mass__bwb_rear_spar_percent_chord_centerline engine_num_fuselage_engines
      design_gross_mass fuselage_planform_area fuselage_cabin_area fuselage_length wing_root_chord
      bwb_rear_spar_percent_chord_root bwb_rear_spar_percent_chord_centerline
      wing_composite_fraction) bwb_rear_spar_percent_chord_centerline ∧
    HasDerivAt (fun t => out_wing_bwb_aftbody_mass engine_num_fuselage_engines design_gross_mass
      fuselage_planform_area fuselage_cabin_area fuselage_length wing_root_chord
      bwb_rear_spar_percent_chord_root bwb_rear_spar_percent_chord_centerline t)
      (J_wing_bwb_aftbody_mass__wing_composite_fraction engine_num_fuselage_engines
      design_gross_mass fuselage_planform_area fuselage_cabin_area fuselage_length wing_root_chord
      bwb_rear_spar_percent_chord_root bwb_rear_spar_percent_chord_centerline)
      wing_composite_fraction :=
  ⟨d_fuselage_aftbody_mass__design_gross_mass _ _ _ _ _ _ _ _ h0 h1 h2,
    d_fuselage_aftbody_mass__fuselage_planform_area _ _ _ _ _ _ _ _ h0 h1 h2,
    d_fuselage_aftbody_mass__fuselage_cabin_area _ _ _ _ _ _ _ _ h0 h1 h2,
    d_fuselage_aftbody_mass__fuselage_length _ _ _ _ _ _ _ _ h0 h1 h2,
    d_fuselage_aftbody_mass__wing_root_chord _ _ _ _ _ _ _ _ h0 h1 h2,
    d_fuselage_aftbody_mass__bwb_rear_spar_percent_chord_root _ _ _ _ _ _ _ _ h0 h1 h2,
    d_fuselage_aftbody_mass__bwb_rear_spar_percent_chord_centerline _ _ _ _ _ _ _ _ h0 h1 h2,
    d_wing_bwb_aftbody_mass__design_gross_mass _ _ _ _ _ _ _ _ _ h0 h1 h2,
    d_wing_bwb_aftbody_mass__fuselage_planform_area _ _ _ _ _ _ _ _ _ h0 h1 h2,
    d_wing_bwb_aftbody_mass__fuselage_cabin_area _ _ _ _ _ _ _ _ _ h0 h1 h2,
    d_wing_bwb_aftbody_mass__fuselage_length _ _ _ _ _ _ _ _ _ h0 h1 h2,
    d_wing_bwb_aftbody_mass__wing_root_chord _ _ _ _ _ _ _ _ _ h0 h1 h2,
    d_wing_bwb_aftbody_mass__bwb_rear_spar_percent_chord_root _ _ _ _ _ _ _ _ _ h0 h1 h2,
    d_wing_bwb_aftbody_mass__bwb_rear_spar_percent_chord_centerline _ _ _ _ _ _ _ _ _ h0 h1 h2,
    d_wing_bwb_aftbody_mass__wing_composite_fraction _ _ _ _ _ _ _ _ _ h0 h1 h2⟩

example : ∃ engine_num_fuselage_engines design_gross_mass fuselage_planform_area
      fuselage_cabin_area fuselage_length wing_root_chord bwb_rear_spar_percent_chord_root
      bwb_rear_spar_percent_chord_centerline wing_composite_fraction : ℝ,
      0 < design_gross_mass ∧
      1 - bwb_rear_spar_percent_chord_centerline ≠ 0 ∧
      0 < fuselage_length :=
  ⟨0, 1, 0, 0, 1, 0, 0, 0, 0, by comp_example, by comp_example, by comp_example⟩

end Verif.Comp.MassFlopsBasedFuselage.BWBAftBodyMass_otherverbosity

namespace Verif.Comp.MassFlopsBasedFuselage.BWBFuselageMass
open Real

/-- Output `fuselage_mass` of `BWBFuselageMass.compute`, aviary/subsystems/mass/flops_based/fuselage.py:180 -/
noncomputable def out_fuselage_mass (design_gross_mass fuselage_cabin_area fuselage_mass_scaler : ℝ) : ℝ :=
  ((fuselage_mass_scaler * (9 / 5)) * (design_gross_mass ^ ((167 / 1000) : ℝ))) *
    (fuselage_cabin_area ^ ((53 / 50) : ℝ))

/-- Partial of `fuselage_mass` with respect to `design_gross_mass` as set by `BWBFuselageMass`, aviary/subsystems/mass/flops_based/fuselage.py:187 -/
noncomputable def J_fuselage_mass__design_gross_mass (design_gross_mass fuselage_cabin_area fuselage_mass_scaler : ℝ) : ℝ :=
  (((fuselage_mass_scaler * (167 / 1000)) * (9 / 5)) * (design_gross_mass ^ ((-(833 / 1000)) :
    ℝ))) * (fuselage_cabin_area ^ ((53 / 50) : ℝ))

/-- Partial of `fuselage_mass` with respect to `fuselage_cabin_area` as set by `BWBFuselageMass`, aviary/subsystems/mass/flops_based/fuselage.py:190 -/
noncomputable def J_fuselage_mass__fuselage_cabin_area (design_gross_mass fuselage_cabin_area fuselage_mass_scaler : ℝ) : ℝ :=
  (((fuselage_mass_scaler * (53 / 50)) * (9 / 5)) * (design_gross_mass ^ ((167 / 1000) : ℝ))) *
    (fuselage_cabin_area ^ ((3 / 50) : ℝ))

/-- Partial of `fuselage_mass` with respect to `fuselage_mass_scaler` as set by `BWBFuselageMass`, aviary/subsystems/mass/flops_based/fuselage.py:193 -/
noncomputable def J_fuselage_mass__fuselage_mass_scaler (design_gross_mass fuselage_cabin_area : ℝ) : ℝ :=
  ((9 / 5) * (design_gross_mass ^ ((167 / 1000) : ℝ))) * (fuselage_cabin_area ^ ((53 / 50) : ℝ))

theorem d_fuselage_mass__design_gross_mass (design_gross_mass fuselage_cabin_area
    fuselage_mass_scaler : ℝ) (h0 : 0 < design_gross_mass) (h1 : 0 < fuselage_cabin_area) :
    HasDerivAt (fun t => out_fuselage_mass t fuselage_cabin_area fuselage_mass_scaler) (J_fuselage_mass__design_gross_mass design_gross_mass fuselage_cabin_area fuselage_mass_scaler) design_gross_mass := by
  have e0 : ∀ x : ℝ, 0 < x → x ^ ((-(833 / 1000)) : ℝ) = x ^ ((167 / 1000) : ℝ) / x ^ 1 := fun x hx => rpow_down hx 1 (by norm_num)
  have e1 : ∀ x : ℝ, 0 < x → x ^ ((53 / 50) : ℝ) = x ^ ((3 / 50) : ℝ) * x ^ 1 := fun x hx => rpow_up hx 1 (by norm_num)
  simp only [out_fuselage_mass, J_fuselage_mass__design_gross_mass]
  (apply hasDerivAt_of_eq; on_goal 1 => (repeat' comp_step))
  all_goals try comp_side
  all_goals try simp (disch := first | assumption | positivity) only [e0, e1]
  all_goals try simp only [mul_zero, zero_mul, add_zero, zero_add, sub_zero, zero_sub, mul_one, one_mul]
  all_goals try push_cast
  all_goals comp_eq

theorem d_fuselage_mass__fuselage_cabin_area (design_gross_mass fuselage_cabin_area
    fuselage_mass_scaler : ℝ) (h0 : 0 < design_gross_mass) (h1 : 0 < fuselage_cabin_area) :
    HasDerivAt (fun t => out_fuselage_mass design_gross_mass t fuselage_mass_scaler) (J_fuselage_mass__fuselage_cabin_area design_gross_mass fuselage_cabin_area fuselage_mass_scaler) fuselage_cabin_area := by
  have e0 : ∀ x : ℝ, 0 < x → x ^ ((53 / 50) : ℝ) = x ^ ((3 / 50) : ℝ) * x ^ 1 := fun x hx => rpow_up hx 1 (by norm_num)
  simp only [out_fuselage_mass, J_fuselage_mass__fuselage_cabin_area]
  (apply hasDerivAt_of_eq; on_goal 1 => (repeat' comp_step))
  all_goals try comp_side
  all_goals try simp (disch := first | assumption | positivity) only [e0]
  all_goals try simp only [mul_zero, zero_mul, add_zero, zero_add, sub_zero, zero_sub, mul_one, one_mul]
  all_goals try push_cast
  all_goals comp_eq

theorem d_fuselage_mass__fuselage_mass_scaler (design_gross_mass fuselage_cabin_area
    fuselage_mass_scaler : ℝ) (h0 : 0 < design_gross_mass) (h1 : 0 < fuselage_cabin_area) :
    HasDerivAt (fun t => out_fuselage_mass design_gross_mass fuselage_cabin_area t) (J_fuselage_mass__fuselage_mass_scaler design_gross_mass fuselage_cabin_area) fuselage_mass_scaler := by
  have e0 : ∀ x : ℝ, 0 < x → x ^ ((53 / 50) : ℝ) = x ^ ((3 / 50) : ℝ) * x ^ 1 := fun x hx => rpow_up hx 1 (by norm_num)
  simp only [out_fuselage_mass, J_fuselage_mass__fuselage_mass_scaler]
  (apply hasDerivAt_of_eq; on_goal 1 => (repeat' comp_step))
  all_goals try comp_side
  all_goals try simp (disch := first | assumption | positivity) only [e0]
  all_goals try simp only [mul_zero, zero_mul, add_zero, zero_add, sub_zero, zero_sub, mul_one, one_mul]
  all_goals try push_cast
  all_goals comp_eq

/-- Every partial derivative set by `BWBFuselageMass` is the derivative of its output. -/
theorem partials (design_gross_mass fuselage_cabin_area fuselage_mass_scaler : ℝ) (h0 : 0 <
    design_gross_mass) (h1 : 0 < fuselage_cabin_area) :
    HasDerivAt (fun t => out_fuselage_mass t fuselage_cabin_area fuselage_mass_scaler)
      (J_fuselage_mass__design_gross_mass design_gross_mass fuselage_cabin_area
      fuselage_mass_scaler) design_gross_mass ∧
    HasDerivAt (fun t => out_fuselage_mass design_gross_mass t fuselage_mass_scaler)
      (J_fuselage_mass__fuselage_cabin_area design_gross_mass fuselage_cabin_area
      fuselage_mass_scaler) fuselage_cabin_area ∧
    HasDerivAt (fun t => out_fuselage_mass design_gross_mass fuselage_cabin_area t)
      (J_fuselage_mass__fuselage_mass_scaler design_gross_mass fuselage_cabin_area)
      fuselage_mass_scaler :=
  ⟨d_fuselage_mass__design_gross_mass _ _ _ h0 h1, d_fuselage_mass__fuselage_cabin_area _ _ _ h0
    h1, d_fuselage_mass__fuselage_mass_scaler _ _ _ h0 h1⟩

example : ∃ design_gross_mass fuselage_cabin_area fuselage_mass_scaler : ℝ,
      0 < design_gross_mass ∧
      0 < fuselage_cabin_area :=
  ⟨1, 1, 0, by comp_example, by comp_example⟩

end Verif.Comp.MassFlopsBasedFuselage.BWBFuselageMass

namespace Verif.Comp.MassFlopsBasedFuselage.TransportFuselageMass_fuselagemilitarycargofloor
open Real

/-- aviary/subsystems/mass/flops_based/fuselage.py:65 -/
noncomputable def avg_diameter_exp (fuselage_ref_diameter : ℝ) : ℝ :=
  fuselage_ref_diameter ^ ((32 / 25) : ℝ)

/-- aviary/subsystems/mass/flops_based/fuselage.py:66 -/
noncomputable def length_exp (fuselage_length : ℝ) : ℝ := fuselage_length ^ ((32 / 25) : ℝ)

/-- aviary/subsystems/mass/flops_based/fuselage.py:67 -/
noncomputable def height_width_exp (fuselage_ref_diameter : ℝ) : ℝ :=
  fuselage_ref_diameter ^ ((7 / 25) : ℝ)

/-- aviary/subsystems/mass/flops_based/fuselage.py:69 -/
noncomputable def addtl_factor (fuselage_num_fuselages distributed_engine_count_factor_of_propulsion_total_num_fuselage_engines : ℝ) : ℝ :=
  ((1 + ((1 / 20) * distributed_engine_count_factor_of_propulsion_total_num_fuselage_engines)) *
    (69 / 50)) * fuselage_num_fuselages

/-- Output `fuselage_mass` of `TransportFuselageMass.compute`, aviary/subsystems/mass/flops_based/fuselage.py:45 -/
noncomputable def out_fuselage_mass (fuselage_num_fuselages distributed_engine_count_factor_of_propulsion_total_num_fuselage_engines fuselage_length fuselage_mass_scaler fuselage_ref_diameter : ℝ) : ℝ :=
  ((((fuselage_mass_scaler * (27 / 20)) * ((fuselage_ref_diameter * fuselage_length) ^ ((32 /
    25) : ℝ))) * (1 + ((1 / 20) *
    distributed_engine_count_factor_of_propulsion_total_num_fuselage_engines))) * (69 / 50)) *
    fuselage_num_fuselages

/-- Partial of `fuselage_mass` with respect to `fuselage_mass_scaler` as set by `TransportFuselageMass`, aviary/subsystems/mass/flops_based/fuselage.py:71 -/
noncomputable def J_fuselage_mass__fuselage_mass_scaler (fuselage_num_fuselages distributed_engine_count_factor_of_propulsion_total_num_fuselage_engines fuselage_length fuselage_ref_diameter : ℝ) : ℝ :=
  (((27 / 20) * (avg_diameter_exp fuselage_ref_diameter)) * (length_exp fuselage_length)) *
    (addtl_factor fuselage_num_fuselages
    distributed_engine_count_factor_of_propulsion_total_num_fuselage_engines)

/-- Partial of `fuselage_mass` with respect to `fuselage_length` as set by `TransportFuselageMass`, aviary/subsystems/mass/flops_based/fuselage.py:74 -/
noncomputable def J_fuselage_mass__fuselage_length (fuselage_num_fuselages distributed_engine_count_factor_of_propulsion_total_num_fuselage_engines fuselage_length fuselage_mass_scaler fuselage_ref_diameter : ℝ) : ℝ :=
  (((fuselage_mass_scaler * (216 / 125)) * (avg_diameter_exp fuselage_ref_diameter)) *
    (fuselage_length ^ ((7 / 25) : ℝ))) * (addtl_factor fuselage_num_fuselages
    distributed_engine_count_factor_of_propulsion_total_num_fuselage_engines)

/-- Partial of `fuselage_mass` with respect to `fuselage_ref_diameter` as set by `TransportFuselageMass`, aviary/subsystems/mass/flops_based/fuselage.py:77 -/
noncomputable def J_fuselage_mass__fuselage_ref_diameter (fuselage_num_fuselages distributed_engine_count_factor_of_propulsion_total_num_fuselage_engines fuselage_length fuselage_mass_scaler fuselage_ref_diameter : ℝ) : ℝ :=
  (((fuselage_mass_scaler * (216 / 125)) * (length_exp fuselage_length)) * (height_width_exp
    fuselage_ref_diameter)) * (addtl_factor fuselage_num_fuselages
    distributed_engine_count_factor_of_propulsion_total_num_fuselage_engines)

theorem d_fuselage_mass__fuselage_length (fuselage_num_fuselages
    distributed_engine_count_factor_of_propulsion_total_num_fuselage_engines fuselage_length
    fuselage_mass_scaler fuselage_ref_diameter : ℝ) (h0 : 0 < fuselage_ref_diameter) (h1 : 0 <
    fuselage_length) :
    HasDerivAt (fun t => out_fuselage_mass fuselage_num_fuselages distributed_engine_count_factor_of_propulsion_total_num_fuselage_engines t fuselage_mass_scaler fuselage_ref_diameter) (J_fuselage_mass__fuselage_length fuselage_num_fuselages distributed_engine_count_factor_of_propulsion_total_num_fuselage_engines fuselage_length fuselage_mass_scaler fuselage_ref_diameter) fuselage_length := by
  have e0 : ∀ x : ℝ, 0 < x → x ^ ((32 / 25) : ℝ) = x ^ ((7 / 25) : ℝ) * x ^ 1 := fun x hx => rpow_up hx 1 (by norm_num)
  simp only [out_fuselage_mass, J_fuselage_mass__fuselage_length, addtl_factor, avg_diameter_exp]
  (apply hasDerivAt_of_eq; on_goal 1 => (repeat' comp_step))
  all_goals try comp_side
  all_goals try simp (disch := first | assumption | positivity) only [mul_rpow, div_rpow, e0]
  all_goals try simp only [mul_zero, zero_mul, add_zero, zero_add, sub_zero, zero_sub, mul_one, one_mul]
  all_goals try push_cast
  all_goals comp_eq

theorem d_fuselage_mass__fuselage_mass_scaler (fuselage_num_fuselages
    distributed_engine_count_factor_of_propulsion_total_num_fuselage_engines fuselage_length
    fuselage_mass_scaler fuselage_ref_diameter : ℝ) (h0 : 0 < fuselage_ref_diameter) (h1 : 0 <
    fuselage_length) :
    HasDerivAt (fun t => out_fuselage_mass fuselage_num_fuselages distributed_engine_count_factor_of_propulsion_total_num_fuselage_engines fuselage_length t fuselage_ref_diameter) (J_fuselage_mass__fuselage_mass_scaler fuselage_num_fuselages distributed_engine_count_factor_of_propulsion_total_num_fuselage_engines fuselage_length fuselage_ref_diameter) fuselage_mass_scaler := by
  have e0 : ∀ x : ℝ, 0 < x → x ^ ((32 / 25) : ℝ) = x ^ ((7 / 25) : ℝ) * x ^ 1 := fun x hx => rpow_up hx 1 (by norm_num)
  simp only [out_fuselage_mass, J_fuselage_mass__fuselage_mass_scaler, addtl_factor, length_exp, avg_diameter_exp]
  (apply hasDerivAt_of_eq; on_goal 1 => (repeat' comp_step))
  all_goals try comp_side
  all_goals try simp (disch := first | assumption | positivity) only [mul_rpow, div_rpow, e0]
  all_goals try simp only [mul_zero, zero_mul, add_zero, zero_add, sub_zero, zero_sub, mul_one, one_mul]
  all_goals try push_cast
  all_goals comp_eq

theorem d_fuselage_mass__fuselage_ref_diameter (fuselage_num_fuselages
    distributed_engine_count_factor_of_propulsion_total_num_fuselage_engines fuselage_length
    fuselage_mass_scaler fuselage_ref_diameter : ℝ) (h0 : 0 < fuselage_ref_diameter) (h1 : 0 <
    fuselage_length) :
    HasDerivAt (fun t => out_fuselage_mass fuselage_num_fuselages distributed_engine_count_factor_of_propulsion_total_num_fuselage_engines fuselage_length fuselage_mass_scaler t) (J_fuselage_mass__fuselage_ref_diameter fuselage_num_fuselages distributed_engine_count_factor_of_propulsion_total_num_fuselage_engines fuselage_length fuselage_mass_scaler fuselage_ref_diameter) fuselage_ref_diameter := by
  have e0 : ∀ x : ℝ, 0 < x → x ^ ((32 / 25) : ℝ) = x ^ ((7 / 25) : ℝ) * x ^ 1 := fun x hx => rpow_up hx 1 (by norm_num)
  simp only [out_fuselage_mass, J_fuselage_mass__fuselage_ref_diameter, addtl_factor, height_width_exp, length_exp]
  (apply hasDerivAt_of_eq; on_goal 1 => (repeat' comp_step))
  all_goals try comp_side
  all_goals try simp (disch := first | assumption | positivity) only [mul_rpow, div_rpow, e0]
  all_goals try simp only [mul_zero, zero_mul, add_zero, zero_add, sub_zero, zero_sub, mul_one, one_mul]
  all_goals try push_cast
  all_goals comp_eq

/-- Every partial derivative set by `TransportFuselageMass` is the derivative of its output. -/
theorem partials (fuselage_num_fuselages
    distributed_engine_count_factor_of_propulsion_total_num_fuselage_engines fuselage_length
    fuselage_mass_scaler fuselage_ref_diameter : ℝ) (h0 : 0 < fuselage_ref_diameter) (h1 : 0 <
    fuselage_length) :
    HasDerivAt (fun t => out_fuselage_mass fuselage_num_fuselages
      distributed_engine_count_factor_of_propulsion_total_num_fuselage_engines t
      fuselage_mass_scaler fuselage_ref_diameter) (J_fuselage_mass__fuselage_length
      fuselage_num_fuselages
      distributed_engine_count_factor_of_propulsion_total_num_fuselage_engines fuselage_length
      fuselage_mass_scaler fuselage_ref_diameter) fuselage_length ∧
    HasDerivAt (fun t => out_fuselage_mass fuselage_num_fuselages
      distributed_engine_count_factor_of_propulsion_total_num_fuselage_engines fuselage_length t
      fuselage_ref_diameter) (J_fuselage_mass__fuselage_mass_scaler fuselage_num_fuselages
      distributed_engine_count_factor_of_propulsion_total_num_fuselage_engines fuselage_length
      fuselage_ref_diameter) fuselage_mass_scaler ∧
    HasDerivAt (fun t => out_fuselage_mass fuselage_num_fuselages
      distributed_engine_count_factor_of_propulsion_total_num_fuselage_engines fuselage_length
      fuselage_mass_scaler t) (J_fuselage_mass__fuselage_ref_diameter fuselage_num_fuselages
      distributed_engine_count_factor_of_propulsion_total_num_fuselage_engines fuselage_length
      fuselage_mass_scaler fuselage_ref_diameter) fuselage_ref_diameter :=
  ⟨d_fuselage_mass__fuselage_length _ _ _ _ _ h0 h1, d_fuselage_mass__fuselage_mass_scaler _ _ _ _
    _ h0 h1, d_fuselage_mass__fuselage_ref_diameter _ _ _ _ _ h0 h1⟩

example : ∃ fuselage_num_fuselages
      distributed_engine_count_factor_of_propulsion_total_num_fuselage_engines fuselage_length
      fuselage_mass_scaler fuselage_ref_diameter : ℝ,
      0 < fuselage_ref_diameter ∧
      0 < fuselage_length :=
  ⟨0, 0, 1, 0, 1, by comp_example, by comp_example⟩

end Verif.Comp.MassFlopsBasedFuselage.TransportFuselageMass_fuselagemilitarycargofloor

namespace Verif.Comp.MassFlopsBasedFuselage.TransportFuselageMass_no_fuselagemilitarycargofloor
open Real

/-- aviary/subsystems/mass/flops_based/fuselage.py:65 -/
noncomputable def avg_diameter_exp (fuselage_ref_diameter : ℝ) : ℝ :=
  fuselage_ref_diameter ^ ((32 / 25) : ℝ)

/-- aviary/subsystems/mass/flops_based/fuselage.py:66 -/
noncomputable def length_exp (fuselage_length : ℝ) : ℝ := fuselage_length ^ ((32 / 25) : ℝ)

/-- aviary/subsystems/mass/flops_based/fuselage.py:67 -/
noncomputable def height_width_exp (fuselage_ref_diameter : ℝ) : ℝ :=
  fuselage_ref_diameter ^ ((7 / 25) : ℝ)

/-- aviary/subsystems/mass/flops_based/fuselage.py:69 -/
noncomputable def addtl_factor (fuselage_num_fuselages distributed_engine_count_factor_of_propulsion_total_num_fuselage_engines : ℝ) : ℝ :=
  (1 + ((1 / 20) * distributed_engine_count_factor_of_propulsion_total_num_fuselage_engines)) *
    fuselage_num_fuselages

/-- Output `fuselage_mass` of `TransportFuselageMass.compute`, aviary/subsystems/mass/flops_based/fuselage.py:45 -/
noncomputable def out_fuselage_mass (fuselage_num_fuselages distributed_engine_count_factor_of_propulsion_total_num_fuselage_engines fuselage_length fuselage_mass_scaler fuselage_ref_diameter : ℝ) : ℝ :=
  (((fuselage_mass_scaler * (27 / 20)) * ((fuselage_ref_diameter * fuselage_length) ^ ((32 / 25)
    : ℝ))) * (1 + ((1 / 20) *
    distributed_engine_count_factor_of_propulsion_total_num_fuselage_engines))) *
    fuselage_num_fuselages

/-- Partial of `fuselage_mass` with respect to `fuselage_mass_scaler` as set by `TransportFuselageMass`, aviary/subsystems/mass/flops_based/fuselage.py:71 -/
noncomputable def J_fuselage_mass__fuselage_mass_scaler (fuselage_num_fuselages distributed_engine_count_factor_of_propulsion_total_num_fuselage_engines fuselage_length fuselage_ref_diameter : ℝ) : ℝ :=
  (((27 / 20) * (avg_diameter_exp fuselage_ref_diameter)) * (length_exp fuselage_length)) *
    (addtl_factor fuselage_num_fuselages
    distributed_engine_count_factor_of_propulsion_total_num_fuselage_engines)

/-- Partial of `fuselage_mass` with respect to `fuselage_length` as set by `TransportFuselageMass`, aviary/subsystems/mass/flops_based/fuselage.py:74 -/
noncomputable def J_fuselage_mass__fuselage_length (fuselage_num_fuselages distributed_engine_count_factor_of_propulsion_total_num_fuselage_engines fuselage_length fuselage_mass_scaler fuselage_ref_diameter : ℝ) : ℝ :=
  (((fuselage_mass_scaler * (216 / 125)) * (avg_diameter_exp fuselage_ref_diameter)) *
    (fuselage_length ^ ((7 / 25) : ℝ))) * (addtl_factor fuselage_num_fuselages
    distributed_engine_count_factor_of_propulsion_total_num_fuselage_engines)

/-- Partial of `fuselage_mass` with respect to `fuselage_ref_diameter` as set by `TransportFuselageMass`, aviary/subsystems/mass/flops_based/fuselage.py:77 -/
noncomputable def J_fuselage_mass__fuselage_ref_diameter (fuselage_num_fuselages distributed_engine_count_factor_of_propulsion_total_num_fuselage_engines fuselage_length fuselage_mass_scaler fuselage_ref_diameter : ℝ) : ℝ :=
  (((fuselage_mass_scaler * (216 / 125)) * (length_exp fuselage_length)) * (height_width_exp
    fuselage_ref_diameter)) * (addtl_factor fuselage_num_fuselages
    distributed_engine_count_factor_of_propulsion_total_num_fuselage_engines)

theorem d_fuselage_mass__fuselage_length (fuselage_num_fuselages
    distributed_engine_count_factor_of_propulsion_total_num_fuselage_engines fuselage_length
    fuselage_mass_scaler fuselage_ref_diameter : ℝ) (h0 : 0 < fuselage_ref_diameter) (h1 : 0 <
    fuselage_length) :
    HasDerivAt (fun t => out_fuselage_mass fuselage_num_fuselages distributed_engine_count_factor_of_propulsion_total_num_fuselage_engines t fuselage_mass_scaler fuselage_ref_diameter) (J_fuselage_mass__fuselage_length fuselage_num_fuselages distributed_engine_count_factor_of_propulsion_total_num_fuselage_engines fuselage_length fuselage_mass_scaler fuselage_ref_diameter) fuselage_length := by
  have e0 : ∀ x : ℝ, 0 < x → x ^ ((32 / 25) : ℝ) = x ^ ((7 / 25) : ℝ) * x ^ 1 := fun x hx => rpow_up hx 1 (by norm_num)
  simp only [out_fuselage_mass, J_fuselage_mass__fuselage_length, addtl_factor, avg_diameter_exp]
  (apply hasDerivAt_of_eq; on_goal 1 => (repeat' comp_step))
  all_goals try comp_side
  all_goals try simp (disch := first | assumption | positivity) only [mul_rpow, div_rpow, e0]
  all_goals try simp only [mul_zero, zero_mul, add_zero, zero_add, sub_zero, zero_sub, mul_one, one_mul]
  all_goals try push_cast
  all_goals comp_eq

theorem d_fuselage_mass__fuselage_mass_scaler (fuselage_num_fuselages
    distributed_engine_count_factor_of_propulsion_total_num_fuselage_engines fuselage_length
    fuselage_mass_scaler fuselage_ref_diameter : ℝ) (h0 : 0 < fuselage_ref_diameter) (h1 : 0 <
    fuselage_length) :
    HasDerivAt (fun t => out_fuselage_mass fuselage_num_fuselages distributed_engine_count_factor_of_propulsion_total_num_fuselage_engines fuselage_length t fuselage_ref_diameter) (J_fuselage_mass__fuselage_mass_scaler fuselage_num_fuselages distributed_engine_count_factor_of_propulsion_total_num_fuselage_engines fuselage_length fuselage_ref_diameter) fuselage_mass_scaler := by
  have e0 : ∀ x : ℝ, 0 < x → x ^ ((32 / 25) : ℝ) = x ^ ((7 / 25) : ℝ) * x ^ 1 := fun x hx => rpow_up hx 1 (by norm_num)
  simp only [out_fuselage_mass, J_fuselage_mass__fuselage_mass_scaler, addtl_factor, length_exp, avg_diameter_exp]
  (apply hasDerivAt_of_eq; on_goal 1 => (repeat' comp_step))
  all_goals try comp_side
  all_goals try simp (disch := first | assumption | positivity) only [mul_rpow, div_rpow, e0]
  all_goals try simp only [mul_zero, zero_mul, add_zero, zero_add, sub_zero, zero_sub, mul_one, one_mul]
  all_goals try push_cast
  all_goals comp_eq

theorem d_fuselage_mass__fuselage_ref_diameter (fuselage_num_fuselages
    distributed_engine_count_factor_of_propulsion_total_num_fuselage_engines fuselage_length
    fuselage_mass_scaler fuselage_ref_diameter : ℝ) (h0 : 0 < fuselage_ref_diameter) (h1 : 0 <
    fuselage_length) :
    HasDerivAt (fun t => out_fuselage_mass fuselage_num_fuselages distributed_engine_count_factor_of_propulsion_total_num_fuselage_engines fuselage_length fuselage_mass_scaler t) (J_fuselage_mass__fuselage_ref_diameter fuselage_num_fuselages distributed_engine_count_factor_of_propulsion_total_num_fuselage_engines fuselage_length fuselage_mass_scaler fuselage_ref_diameter) fuselage_ref_diameter := by
  have e0 : ∀ x : ℝ, 0 < x → x ^ ((32 / 25) : ℝ) = x ^ ((7 / 25) : ℝ) * x ^ 1 := fun x hx => rpow_up hx 1 (by norm_num)
  simp only [out_fuselage_mass, J_fuselage_mass__fuselage_ref_diameter, addtl_factor, height_width_exp, length_exp]
  (apply hasDerivAt_of_eq; on_goal 1 => (repeat' comp_step))
  all_goals try comp_side
  all_goals try simp (disch := first | assumption | positivity) only [mul_rpow, div_rpow, e0]
  all_goals try simp only [mul_zero, zero_mul, add_zero, zero_add, sub_zero, zero_sub, mul_one, one_mul]
  all_goals try push_cast
  all_goals comp_eq

/-- Every partial derivative set by `TransportFuselageMass` is the derivative of its output. -/
theorem partials (fuselage_num_fuselages
    distributed_engine_count_factor_of_propulsion_total_num_fuselage_engines fuselage_length
    fuselage_mass_scaler fuselage_ref_diameter : ℝ) (h0 : 0 < fuselage_ref_diameter) (h1 : 0 <
    fuselage_length) :
    HasDerivAt (fun t => out_fuselage_mass fuselage_num_fuselages
      distributed_engine_count_factor_of_propulsion_total_num_fuselage_engines t
      fuselage_mass_scaler fuselage_ref_diameter) (J_fuselage_mass__fuselage_length
      fuselage_num_fuselages
      distributed_engine_count_factor_of_propulsion_total_num_fuselage_engines fuselage_length
      fuselage_mass_scaler fuselage_ref_diameter) fuselage_length ∧
    HasDerivAt (fun t => out_fuselage_mass fuselage_num_fuselages
      distributed_engine_count_factor_of_propulsion_total_num_fuselage_engines fuselage_length t
      fuselage_ref_diameter) (J_fuselage_mass__fuselage_mass_scaler fuselage_num_fuselages
      distributed_engine_count_factor_of_propulsion_total_num_fuselage_engines fuselage_length
      fuselage_ref_diameter) fuselage_mass_scaler ∧
    HasDerivAt (fun t => out_fuselage_mass fuselage_num_fuselages
      distributed_engine_count_factor_of_propulsion_total_num_fuselage_engines fuselage_length
      fuselage_mass_scaler t) (J_fuselage_mass__fuselage_ref_diameter fuselage_num_fuselages
      distributed_engine_count_factor_of_propulsion_total_num_fuselage_engines fuselage_length
      fuselage_mass_scaler fuselage_ref_diameter) fuselage_ref_diameter :=
  ⟨d_fuselage_mass__fuselage_length _ _ _ _ _ h0 h1, d_fuselage_mass__fuselage_mass_scaler _ _ _ _
    _ h0 h1, d_fuselage_mass__fuselage_ref_diameter _ _ _ _ _ h0 h1⟩

example : ∃ fuselage_num_fuselages
      distributed_engine_count_factor_of_propulsion_total_num_fuselage_engines fuselage_length
      fuselage_mass_scaler fuselage_ref_diameter : ℝ,
      0 < fuselage_ref_diameter ∧
      0 < fuselage_length :=
  ⟨0, 0, 1, 0, 1, by comp_example, by comp_example⟩

end Verif.Comp.MassFlopsBasedFuselage.TransportFuselageMass_no_fuselagemilitarycargofloor

