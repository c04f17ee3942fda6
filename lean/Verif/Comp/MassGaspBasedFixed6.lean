import Verif.Lemmas.CompDeriv

/-! # Partial derivatives of the components of `aviary/subsystems/mass/gasp_based/fixed.py`

One node of a vector component is modelled over the real numbers.  Each option that selects a
branch is fixed, one namespace per choice.  `out_x` is the output `x`, `J_x__y` the entry that
`compute_partials` (or `declare_partials` with `val`) assigns, `d_x__y` the proof that the entry is
the derivative.  Inputs an output does not take as argument have no influence on it.

* `MassParameters_smooth`: not proved: `c_gear_loc` by `landinggear_main_gear_location`,
  `propulsion_engine_position_factor` by `max_mach`

* `VerticalTailMass`: entries that differ from the derivative: `verticaltail_mass` by
  `design_gross_mass`, `verticaltail_mass` by `fuselage_length`, `verticaltail_mass` by
  `horizontaltail_mass_coefficient`, `verticaltail_mass` by `horizontaltail_span`,
  `verticaltail_mass` by `horizontaltail_taper_ratio`, `verticaltail_mass` by
  `horizontaltail_vertical_tail_mount_location`, `verticaltail_mass` by
  `landinggear_tail_hook_mass_scaler`, `verticaltail_mass` by `min_dive_vel`, `verticaltail_mass`
  by `verticaltail_area`, `verticaltail_mass` by `verticaltail_mass_coefficient`,
  `verticaltail_mass` by `verticaltail_moment_arm`, `verticaltail_mass` by
  `verticaltail_root_chord`, `verticaltail_mass` by `verticaltail_span`, `verticaltail_mass` by
  `verticaltail_taper_ratio`, `verticaltail_mass` by `verticaltail_thickness_to_chord`,
  `verticaltail_mass` by `wing_span` -/

set_option linter.all false

namespace Verif.Comp.MassGaspBasedFixed.MassParameters_smooth
open Real

/-- aviary/subsystems/mass/gasp_based/fixed.py:109 -/
noncomputable abbrev tan_half_sweep (wing_sweep wing_taper_ratio wing_aspect_ratio : ℝ) : ℝ :=
  (tan wing_sweep) - (((1 - wing_taper_ratio) / (1 + wing_taper_ratio)) / wing_aspect_ratio)

/-- aviary/subsystems/mass/gasp_based/fixed.py:111 -/
noncomputable abbrev half_sweep (wing_sweep wing_taper_ratio wing_aspect_ratio : ℝ) : ℝ :=
  arctan (tan_half_sweep wing_sweep wing_taper_ratio wing_aspect_ratio)

/-- aviary/subsystems/mass/gasp_based/fixed.py:112 -/
noncomputable abbrev cos_half_sweep (wing_sweep wing_taper_ratio wing_aspect_ratio : ℝ) : ℝ :=
  cos (half_sweep wing_sweep wing_taper_ratio wing_aspect_ratio)

/-- aviary/subsystems/mass/gasp_based/fixed.py:113 -/
noncomputable abbrev struct_span (wing_sweep wing_taper_ratio wing_aspect_ratio wing_span : ℝ) : ℝ :=
  wing_span / (cos_half_sweep wing_sweep wing_taper_ratio wing_aspect_ratio)

/-- aviary/subsystems/mass/gasp_based/fixed.py:114 -/
noncomputable abbrev c_material (wing_sweep wing_taper_ratio wing_aspect_ratio wing_span : ℝ) : ℝ :=
  1 + ((5 / 2) / ((struct_span wing_sweep wing_taper_ratio wing_aspect_ratio wing_span) ^ ((1 /
    2) : ℝ)))

/-- aviary/subsystems/mass/gasp_based/fixed.py:115 -/
noncomputable abbrev c_strut_braced (strut_attachment_location_dimensionless : ℝ) : ℝ :=
  1 - (strut_attachment_location_dimensionless ^ 2)

/-- aviary/subsystems/mass/gasp_based/fixed.py:123 -/
noncomputable abbrev c_gear_loc (landinggear_main_gear_location : ℝ) : ℝ :=
  ((19 / 20) * (sigX landinggear_main_gear_location (1 / 200) (-(1 / 32000)))) + (sigX
    landinggear_main_gear_location (1 / 200) (1 / 32000))

/-- aviary/subsystems/mass/gasp_based/fixed.py:131 -/
noncomputable abbrev c_eng_pos (max_mach : ℝ) : ℝ :=
  (sigX max_mach (3 / 4) (-(1 / 320))) + ((21 / 20) * (sigX max_mach (3 / 4) (1 / 320)))

/-- aviary/subsystems/mass/gasp_based/fixed.py:138 -/
noncomputable abbrev c_eng_pos_2 (max_mach : ℝ) : ℝ :=
  ((49 / 50) * (sigX max_mach (3 / 4) (-(1 / 320)))) + ((19 / 20) * (sigX max_mach (3 / 4) (1 /
    320)))

/-- aviary/subsystems/mass/gasp_based/fixed.py:137 -/
noncomputable abbrev c_eng_pos_3 (propulsion_total_num_wing_engines max_mach : ℝ) : ℝ :=
  if (propulsion_total_num_wing_engines = 2 ∨ propulsion_total_num_wing_engines = 3) then
    (c_eng_pos_2 max_mach) else (c_eng_pos max_mach)

/-- aviary/subsystems/mass/gasp_based/fixed.py:142 -/
noncomputable abbrev c_eng_pos_4 (max_mach : ℝ) : ℝ :=
  ((19 / 20) * (sigX max_mach (3 / 4) (-(1 / 320)))) + ((9 / 10) * (sigX max_mach (3 / 4) (1 /
    320)))

/-- aviary/subsystems/mass/gasp_based/fixed.py:141 -/
noncomputable abbrev c_eng_pos_5 (propulsion_total_num_wing_engines max_mach : ℝ) : ℝ :=
  if propulsion_total_num_wing_engines = 4 then (c_eng_pos_4 max_mach) else (c_eng_pos_3
    propulsion_total_num_wing_engines max_mach)

/-- aviary/subsystems/mass/gasp_based/fixed.py:185 -/
noncomputable abbrev dtanhs_dsc4 (wing_sweep : ℝ) : ℝ := 1 / ((cos wing_sweep) ^ 2)

/-- aviary/subsystems/mass/gasp_based/fixed.py:186 -/
noncomputable abbrev dtanhs_tr (wing_taper_ratio wing_aspect_ratio : ℝ) : ℝ :=
  ((-(1 / wing_aspect_ratio)) * (((1 + wing_taper_ratio) * (-1)) - (1 - wing_taper_ratio))) /
    ((1 + wing_taper_ratio) ^ 2)

/-- aviary/subsystems/mass/gasp_based/fixed.py:189 -/
noncomputable abbrev dtanhs_dar (wing_taper_ratio wing_aspect_ratio : ℝ) : ℝ :=
  ((1 - wing_taper_ratio) / (1 + wing_taper_ratio)) / (wing_aspect_ratio ^ 2)

/-- Output `wing_material_factor` of `MassParameters.compute`, aviary/subsystems/mass/gasp_based/fixed.py:163 -/
noncomputable def out_wing_material_factor (wing_sweep wing_taper_ratio wing_aspect_ratio wing_span : ℝ) : ℝ :=
  c_material wing_sweep wing_taper_ratio wing_aspect_ratio wing_span

/-- Output `c_strut_braced` of `MassParameters.compute`, aviary/subsystems/mass/gasp_based/fixed.py:164 -/
noncomputable def out_c_strut_braced (strut_attachment_location_dimensionless : ℝ) : ℝ :=
  c_strut_braced strut_attachment_location_dimensionless

/-- Output `c_gear_loc` of `MassParameters.compute`, aviary/subsystems/mass/gasp_based/fixed.py:165 -/
noncomputable def out_c_gear_loc (landinggear_main_gear_location : ℝ) : ℝ :=
  c_gear_loc landinggear_main_gear_location

/-- Output `propulsion_engine_position_factor` of `MassParameters.compute`, aviary/subsystems/mass/gasp_based/fixed.py:166 -/
noncomputable def out_propulsion_engine_position_factor (propulsion_total_num_wing_engines max_mach : ℝ) : ℝ :=
  c_eng_pos_5 propulsion_total_num_wing_engines max_mach

/-- Output `half_sweep` of `MassParameters.compute`, aviary/subsystems/mass/gasp_based/fixed.py:167 -/
noncomputable def out_half_sweep (wing_sweep wing_taper_ratio wing_aspect_ratio : ℝ) : ℝ :=
  half_sweep wing_sweep wing_taper_ratio wing_aspect_ratio

/-- Partial of `wing_material_factor` with respect to `wing_span` as set by `MassParameters`, aviary/subsystems/mass/gasp_based/fixed.py:191 -/
noncomputable def J_wing_material_factor__wing_span (wing_sweep wing_taper_ratio wing_aspect_ratio wing_span : ℝ) : ℝ :=
  ((-(5 / 4)) / ((struct_span wing_sweep wing_taper_ratio wing_aspect_ratio wing_span) ^ ((3 /
    2) : ℝ))) * (1 / (cos_half_sweep wing_sweep wing_taper_ratio wing_aspect_ratio))

/-- Partial of `wing_material_factor` with respect to `wing_sweep` as set by `MassParameters`, aviary/subsystems/mass/gasp_based/fixed.py:194 -/
noncomputable def J_wing_material_factor__wing_sweep (wing_sweep wing_taper_ratio wing_aspect_ratio wing_span : ℝ) : ℝ :=
  (((((-(5 / 4)) / ((struct_span wing_sweep wing_taper_ratio wing_aspect_ratio wing_span) ^ ((3
    / 2) : ℝ))) * ((-wing_span) / ((cos_half_sweep wing_sweep wing_taper_ratio
    wing_aspect_ratio) ^ 2))) * (-(sin (half_sweep wing_sweep wing_taper_ratio
    wing_aspect_ratio)))) / (((tan_half_sweep wing_sweep wing_taper_ratio wing_aspect_ratio) ^
    2) + 1)) * (dtanhs_dsc4 wing_sweep)

/-- Partial of `wing_material_factor` with respect to `wing_taper_ratio` as set by `MassParameters`, aviary/subsystems/mass/gasp_based/fixed.py:203 -/
noncomputable def J_wing_material_factor__wing_taper_ratio (wing_sweep wing_taper_ratio wing_aspect_ratio wing_span : ℝ) : ℝ :=
  (((((-(5 / 4)) / ((struct_span wing_sweep wing_taper_ratio wing_aspect_ratio wing_span) ^ ((3
    / 2) : ℝ))) * ((-wing_span) / ((cos_half_sweep wing_sweep wing_taper_ratio
    wing_aspect_ratio) ^ 2))) * (-(sin (half_sweep wing_sweep wing_taper_ratio
    wing_aspect_ratio)))) / (((tan_half_sweep wing_sweep wing_taper_ratio wing_aspect_ratio) ^
    2) + 1)) * (dtanhs_tr wing_taper_ratio wing_aspect_ratio)

/-- Partial of `wing_material_factor` with respect to `wing_aspect_ratio` as set by `MassParameters`, aviary/subsystems/mass/gasp_based/fixed.py:212 -/
noncomputable def J_wing_material_factor__wing_aspect_ratio (wing_sweep wing_taper_ratio wing_aspect_ratio wing_span : ℝ) : ℝ :=
  (((((-(5 / 4)) / ((struct_span wing_sweep wing_taper_ratio wing_aspect_ratio wing_span) ^ ((3
    / 2) : ℝ))) * ((-wing_span) / ((cos_half_sweep wing_sweep wing_taper_ratio
    wing_aspect_ratio) ^ 2))) * (-(sin (half_sweep wing_sweep wing_taper_ratio
    wing_aspect_ratio)))) / (((tan_half_sweep wing_sweep wing_taper_ratio wing_aspect_ratio) ^
    2) + 1)) * (dtanhs_dar wing_taper_ratio wing_aspect_ratio)

/-- Partial of `propulsion_engine_position_factor` with respect to `max_mach` as set by `MassParameters`, aviary/subsystems/mass/gasp_based/fixed.py:231 -/
noncomputable def J_propulsion_engine_position_factor__max_mach (propulsion_total_num_wing_engines max_mach : ℝ) : ℝ :=
  if propulsion_total_num_wing_engines = 4 then (((-(19 / 20)) * (dsigX max_mach (3 / 4) (1 /
    320))) + ((9 / 10) * (dsigX max_mach (3 / 4) (1 / 320)))) else (if
    (propulsion_total_num_wing_engines = 2 ∨ propulsion_total_num_wing_engines = 3) then (((-(49
    / 50)) * (dsigX max_mach (3 / 4) (1 / 320))) + ((19 / 20) * (dsigX max_mach (3 / 4) (1 /
    320)))) else ((-(dsigX max_mach (3 / 4) (1 / 320))) + ((21 / 20) * (dsigX max_mach (3 / 4)
    (1 / 320)))))

/-- Partial of `half_sweep` with respect to `wing_sweep` as set by `MassParameters`, aviary/subsystems/mass/gasp_based/fixed.py:237 -/
noncomputable def J_half_sweep__wing_sweep (wing_sweep wing_taper_ratio wing_aspect_ratio : ℝ) : ℝ :=
  (1 / (((tan_half_sweep wing_sweep wing_taper_ratio wing_aspect_ratio) ^ 2) + 1)) *
    (dtanhs_dsc4 wing_sweep)

/-- Partial of `half_sweep` with respect to `wing_taper_ratio` as set by `MassParameters`, aviary/subsystems/mass/gasp_based/fixed.py:238 -/
noncomputable def J_half_sweep__wing_taper_ratio (wing_sweep wing_taper_ratio wing_aspect_ratio : ℝ) : ℝ :=
  (1 / (((tan_half_sweep wing_sweep wing_taper_ratio wing_aspect_ratio) ^ 2) + 1)) * (dtanhs_tr
    wing_taper_ratio wing_aspect_ratio)

/-- Partial of `half_sweep` with respect to `wing_aspect_ratio` as set by `MassParameters`, aviary/subsystems/mass/gasp_based/fixed.py:239 -/
noncomputable def J_half_sweep__wing_aspect_ratio (wing_sweep wing_taper_ratio wing_aspect_ratio : ℝ) : ℝ :=
  (1 / (((tan_half_sweep wing_sweep wing_taper_ratio wing_aspect_ratio) ^ 2) + 1)) * (dtanhs_dar
    wing_taper_ratio wing_aspect_ratio)

/-- Partial of `c_strut_braced` with respect to `strut_attachment_location_dimensionless` as set by `MassParameters`, aviary/subsystems/mass/gasp_based/fixed.py:241 -/
noncomputable def J_c_strut_braced__strut_attachment_location_dimensionless (strut_attachment_location_dimensionless : ℝ) : ℝ :=
  (-2) * strut_attachment_location_dimensionless

/-- Partial of `c_gear_loc` with respect to `landinggear_main_gear_location` as set by `MassParameters`, aviary/subsystems/mass/gasp_based/fixed.py:244 -/
noncomputable def J_c_gear_loc__landinggear_main_gear_location (landinggear_main_gear_location : ℝ) : ℝ :=
  ((-95) * (dsigX landinggear_main_gear_location (1 / 200) (1 / 32000))) + (100 * (dsigX
    landinggear_main_gear_location (1 / 200) (1 / 32000)))

theorem d_wing_material_factor__wing_sweep (wing_sweep wing_taper_ratio wing_aspect_ratio
    wing_span : ℝ) (h0 : cos wing_sweep ≠ 0) (h1 : 0 < wing_taper_ratio) (h2 : 0 <
    wing_aspect_ratio) (h3 : cos (arctan ((tan wing_sweep) - (((1 - wing_taper_ratio) / (1 +
    wing_taper_ratio)) / wing_aspect_ratio))) ≠ 0) (h4 : 0 < wing_span) (h5 : 0 < cos (arctan
    ((tan wing_sweep) - (((1 - wing_taper_ratio) / (1 + wing_taper_ratio)) / wing_aspect_ratio))))
    :
    HasDerivAt (fun t => out_wing_material_factor t wing_taper_ratio wing_aspect_ratio wing_span) (J_wing_material_factor__wing_sweep wing_sweep wing_taper_ratio wing_aspect_ratio wing_span) wing_sweep := by
  have e0 : ∀ x : ℝ, 0 < x → x ^ ((3 / 2) : ℝ) = x ^ ((1 / 2) : ℝ) * x ^ 1 := fun x hx => rpow_up hx 1 (by norm_num)
  simp only [out_wing_material_factor, J_wing_material_factor__wing_sweep, dtanhs_dsc4, c_material, struct_span, cos_half_sweep, half_sweep, tan_half_sweep]
  (apply hasDerivAt_of_eq; on_goal 1 => (repeat' comp_step))
  all_goals try comp_side
  all_goals try simp (disch := first | assumption | positivity) only [mul_rpow, div_rpow, e0, div_mul_eq_div_div, div_half, inv_half]
  all_goals try simp only [mul_zero, zero_mul, add_zero, zero_add, sub_zero, zero_sub, mul_one, one_mul]
  all_goals try push_cast
  all_goals comp_eq

theorem d_wing_material_factor__wing_taper_ratio (wing_sweep wing_taper_ratio wing_aspect_ratio
    wing_span : ℝ) (h0 : cos wing_sweep ≠ 0) (h1 : 0 < wing_taper_ratio) (h2 : 0 <
    wing_aspect_ratio) (h3 : cos (arctan ((tan wing_sweep) - (((1 - wing_taper_ratio) / (1 +
    wing_taper_ratio)) / wing_aspect_ratio))) ≠ 0) (h4 : 0 < wing_span) (h5 : 0 < cos (arctan
    ((tan wing_sweep) - (((1 - wing_taper_ratio) / (1 + wing_taper_ratio)) / wing_aspect_ratio))))
    :
    HasDerivAt (fun t => out_wing_material_factor wing_sweep t wing_aspect_ratio wing_span) (J_wing_material_factor__wing_taper_ratio wing_sweep wing_taper_ratio wing_aspect_ratio wing_span) wing_taper_ratio := by
  have e0 : ∀ x : ℝ, 0 < x → x ^ ((3 / 2) : ℝ) = x ^ ((1 / 2) : ℝ) * x ^ 1 := fun x hx => rpow_up hx 1 (by norm_num)
  simp only [out_wing_material_factor, J_wing_material_factor__wing_taper_ratio, dtanhs_tr, c_material, struct_span, cos_half_sweep, half_sweep, tan_half_sweep]
  (apply hasDerivAt_of_eq; on_goal 1 => (repeat' comp_step))
  all_goals try comp_side
  all_goals try simp (disch := first | assumption | positivity) only [mul_rpow, div_rpow, e0, div_mul_eq_div_div, div_half, inv_half]
  all_goals try simp only [mul_zero, zero_mul, add_zero, zero_add, sub_zero, zero_sub, mul_one, one_mul]
  all_goals try push_cast
  all_goals comp_eq

theorem d_wing_material_factor__wing_aspect_ratio (wing_sweep wing_taper_ratio wing_aspect_ratio
    wing_span : ℝ) (h0 : cos wing_sweep ≠ 0) (h1 : 0 < wing_taper_ratio) (h2 : 0 <
    wing_aspect_ratio) (h3 : cos (arctan ((tan wing_sweep) - (((1 - wing_taper_ratio) / (1 +
    wing_taper_ratio)) / wing_aspect_ratio))) ≠ 0) (h4 : 0 < wing_span) (h5 : 0 < cos (arctan
    ((tan wing_sweep) - (((1 - wing_taper_ratio) / (1 + wing_taper_ratio)) / wing_aspect_ratio))))
    :
    HasDerivAt (fun t => out_wing_material_factor wing_sweep wing_taper_ratio t wing_span) (J_wing_material_factor__wing_aspect_ratio wing_sweep wing_taper_ratio wing_aspect_ratio wing_span) wing_aspect_ratio := by
  have e0 : ∀ x : ℝ, 0 < x → x ^ ((3 / 2) : ℝ) = x ^ ((1 / 2) : ℝ) * x ^ 1 := fun x hx => rpow_up hx 1 (by norm_num)
  simp only [out_wing_material_factor, J_wing_material_factor__wing_aspect_ratio, dtanhs_dar, c_material, struct_span, cos_half_sweep, half_sweep, tan_half_sweep]
  (apply hasDerivAt_of_eq; on_goal 1 => (repeat' comp_step))
  all_goals try comp_side
  all_goals try simp (disch := first | assumption | positivity) only [mul_rpow, div_rpow, e0, div_mul_eq_div_div, div_half, inv_half]
  all_goals try simp only [mul_zero, zero_mul, add_zero, zero_add, sub_zero, zero_sub, mul_one, one_mul]
  all_goals try push_cast
  all_goals comp_eq

theorem d_wing_material_factor__wing_span (wing_sweep wing_taper_ratio wing_aspect_ratio wing_span
    : ℝ) (h0 : cos wing_sweep ≠ 0) (h1 : 0 < wing_taper_ratio) (h2 : 0 < wing_aspect_ratio) (h3 :
    cos (arctan ((tan wing_sweep) - (((1 - wing_taper_ratio) / (1 + wing_taper_ratio)) /
    wing_aspect_ratio))) ≠ 0) (h4 : 0 < wing_span) (h5 : 0 < cos (arctan ((tan wing_sweep) - (((1
    - wing_taper_ratio) / (1 + wing_taper_ratio)) / wing_aspect_ratio)))) :
    HasDerivAt (fun t => out_wing_material_factor wing_sweep wing_taper_ratio wing_aspect_ratio t) (J_wing_material_factor__wing_span wing_sweep wing_taper_ratio wing_aspect_ratio wing_span) wing_span := by
  have e0 : ∀ x : ℝ, 0 < x → x ^ ((3 / 2) : ℝ) = x ^ ((1 / 2) : ℝ) * x ^ 1 := fun x hx => rpow_up hx 1 (by norm_num)
  simp only [out_wing_material_factor, J_wing_material_factor__wing_span, c_material, struct_span, cos_half_sweep, half_sweep, tan_half_sweep]
  (apply hasDerivAt_of_eq; on_goal 1 => (repeat' comp_step))
  all_goals try comp_side
  all_goals try simp (disch := first | assumption | positivity) only [mul_rpow, div_rpow, e0, div_mul_eq_div_div, div_half, inv_half]
  all_goals try simp only [mul_zero, zero_mul, add_zero, zero_add, sub_zero, zero_sub, mul_one, one_mul]
  all_goals try push_cast
  all_goals comp_eq

theorem d_c_strut_braced__strut_attachment_location_dimensionless
    (strut_attachment_location_dimensionless : ℝ)  :
    HasDerivAt (fun t => out_c_strut_braced t) (J_c_strut_braced__strut_attachment_location_dimensionless strut_attachment_location_dimensionless) strut_attachment_location_dimensionless := by
  simp only [out_c_strut_braced, J_c_strut_braced__strut_attachment_location_dimensionless, c_strut_braced]
  (apply hasDerivAt_of_eq; on_goal 1 => (repeat' comp_step))
  all_goals try comp_side
  all_goals try simp only [mul_zero, zero_mul, add_zero, zero_add, sub_zero, zero_sub, mul_one, one_mul]
  all_goals try push_cast
  all_goals comp_eq

theorem d_half_sweep__wing_sweep (wing_sweep wing_taper_ratio wing_aspect_ratio : ℝ) (h0 : cos
    wing_sweep ≠ 0) (h1 : 0 < wing_taper_ratio) (h2 : 0 < wing_aspect_ratio) :
    HasDerivAt (fun t => out_half_sweep t wing_taper_ratio wing_aspect_ratio) (J_half_sweep__wing_sweep wing_sweep wing_taper_ratio wing_aspect_ratio) wing_sweep := by
  simp only [out_half_sweep, J_half_sweep__wing_sweep, dtanhs_dsc4, half_sweep, tan_half_sweep]
  (apply hasDerivAt_of_eq; on_goal 1 => (repeat' comp_step))
  all_goals try comp_side
  all_goals try simp only [mul_zero, zero_mul, add_zero, zero_add, sub_zero, zero_sub, mul_one, one_mul]
  all_goals try push_cast
  all_goals comp_eq

theorem d_half_sweep__wing_taper_ratio (wing_sweep wing_taper_ratio wing_aspect_ratio : ℝ) (h0 :
    cos wing_sweep ≠ 0) (h1 : 0 < wing_taper_ratio) (h2 : 0 < wing_aspect_ratio) :
    HasDerivAt (fun t => out_half_sweep wing_sweep t wing_aspect_ratio) (J_half_sweep__wing_taper_ratio wing_sweep wing_taper_ratio wing_aspect_ratio) wing_taper_ratio := by
  simp only [out_half_sweep, J_half_sweep__wing_taper_ratio, dtanhs_tr, half_sweep, tan_half_sweep]
  (apply hasDerivAt_of_eq; on_goal 1 => (repeat' comp_step))
  all_goals try comp_side
  all_goals try simp only [mul_zero, zero_mul, add_zero, zero_add, sub_zero, zero_sub, mul_one, one_mul]
  all_goals try push_cast
  all_goals comp_eq

theorem d_half_sweep__wing_aspect_ratio (wing_sweep wing_taper_ratio wing_aspect_ratio : ℝ) (h0 :
    cos wing_sweep ≠ 0) (h1 : 0 < wing_taper_ratio) (h2 : 0 < wing_aspect_ratio) :
    HasDerivAt (fun t => out_half_sweep wing_sweep wing_taper_ratio t) (J_half_sweep__wing_aspect_ratio wing_sweep wing_taper_ratio wing_aspect_ratio) wing_aspect_ratio := by
  simp only [out_half_sweep, J_half_sweep__wing_aspect_ratio, dtanhs_dar, half_sweep, tan_half_sweep]
  (apply hasDerivAt_of_eq; on_goal 1 => (repeat' comp_step))
  all_goals try comp_side
  all_goals try simp only [mul_zero, zero_mul, add_zero, zero_add, sub_zero, zero_sub, mul_one, one_mul]
  all_goals try push_cast
  all_goals comp_eq

/-- Partial derivatives of `MassParameters` that are proved correct (the rest is listed in the header). -/
theorem partials_partial (wing_sweep wing_taper_ratio wing_aspect_ratio wing_span
    strut_attachment_location_dimensionless : ℝ) (h0 : cos wing_sweep ≠ 0) (h1 : 0 <
    wing_taper_ratio) (h2 : 0 < wing_aspect_ratio) (h3 : cos (arctan ((tan wing_sweep) - (((1 -
    wing_taper_ratio) / (1 + wing_taper_ratio)) / wing_aspect_ratio))) ≠ 0) (h4 : 0 < wing_span)
    (h5 : 0 < cos (arctan ((tan wing_sweep) - (((1 - wing_taper_ratio) / (1 + wing_taper_ratio)) /
    wing_aspect_ratio)))) :
    HasDerivAt (fun t => out_wing_material_factor t wing_taper_ratio wing_aspect_ratio wing_span)
      (J_wing_material_factor__wing_sweep wing_sweep wing_taper_ratio wing_aspect_ratio wing_span)
      wing_sweep ∧
    HasDerivAt (fun t => out_wing_material_factor wing_sweep t wing_aspect_ratio wing_span)
      (J_wing_material_factor__wing_taper_ratio wing_sweep wing_taper_ratio wing_aspect_ratio
      wing_span) wing_taper_ratio ∧
    HasDerivAt (fun t => out_wing_material_factor wing_sweep wing_taper_ratio t wing_span)
      (J_wing_material_factor__wing_aspect_ratio wing_sweep wing_taper_ratio wing_aspect_ratio
      wing_span) wing_aspect_ratio ∧
    HasDerivAt (fun t => out_wing_material_factor wing_sweep wing_taper_ratio wing_aspect_ratio t)
      (J_wing_material_factor__wing_span wing_sweep wing_taper_ratio wing_aspect_ratio wing_span)
      wing_span ∧
    HasDerivAt (fun t => out_c_strut_braced t)
      (J_c_strut_braced__strut_attachment_location_dimensionless
      strut_attachment_location_dimensionless) strut_attachment_location_dimensionless ∧
    HasDerivAt (fun t => out_half_sweep t wing_taper_ratio wing_aspect_ratio)
      (J_half_sweep__wing_sweep wing_sweep wing_taper_ratio wing_aspect_ratio) wing_sweep ∧
    HasDerivAt (fun t => out_half_sweep wing_sweep t wing_aspect_ratio)
      (J_half_sweep__wing_taper_ratio wing_sweep wing_taper_ratio wing_aspect_ratio)
      wing_taper_ratio ∧
    HasDerivAt (fun t => out_half_sweep wing_sweep wing_taper_ratio t)
      (J_half_sweep__wing_aspect_ratio wing_sweep wing_taper_ratio wing_aspect_ratio)
      wing_aspect_ratio :=
  ⟨d_wing_material_factor__wing_sweep _ _ _ _ h0 h1 h2 h3 h4 h5,
    d_wing_material_factor__wing_taper_ratio _ _ _ _ h0 h1 h2 h3 h4 h5,
    d_wing_material_factor__wing_aspect_ratio _ _ _ _ h0 h1 h2 h3 h4 h5,
    d_wing_material_factor__wing_span _ _ _ _ h0 h1 h2 h3 h4 h5,
    d_c_strut_braced__strut_attachment_location_dimensionless _, d_half_sweep__wing_sweep _ _ _ h0
    h1 h2, d_half_sweep__wing_taper_ratio _ _ _ h0 h1 h2, d_half_sweep__wing_aspect_ratio _ _ _ h0
    h1 h2⟩

example : ∃ wing_sweep wing_taper_ratio wing_aspect_ratio wing_span
      strut_attachment_location_dimensionless : ℝ,
      cos wing_sweep ≠ 0 ∧
      0 < wing_taper_ratio ∧
      0 < wing_aspect_ratio ∧
      cos (arctan ((tan wing_sweep) - (((1 - wing_taper_ratio) / (1 + wing_taper_ratio)) /
        wing_aspect_ratio))) ≠ 0 ∧
      0 < wing_span ∧
      0 < cos (arctan ((tan wing_sweep) - (((1 - wing_taper_ratio) / (1 + wing_taper_ratio)) /
        wing_aspect_ratio))) :=
  ⟨0, 1, 1, 1, 0, by comp_example, by comp_example, by comp_example, by comp_example, by
    comp_example, by comp_example⟩

end Verif.Comp.MassGaspBasedFixed.MassParameters_smooth

namespace Verif.Comp.MassGaspBasedFixed.MassParameters_no_smooth
open Real

/-- aviary/subsystems/mass/gasp_based/fixed.py:109 -/
noncomputable abbrev tan_half_sweep (wing_sweep wing_taper_ratio wing_aspect_ratio : ℝ) : ℝ :=
  (tan wing_sweep) - (((1 - wing_taper_ratio) / (1 + wing_taper_ratio)) / wing_aspect_ratio)

/-- aviary/subsystems/mass/gasp_based/fixed.py:111 -/
noncomputable abbrev half_sweep (wing_sweep wing_taper_ratio wing_aspect_ratio : ℝ) : ℝ :=
  arctan (tan_half_sweep wing_sweep wing_taper_ratio wing_aspect_ratio)

/-- aviary/subsystems/mass/gasp_based/fixed.py:112 -/
noncomputable abbrev cos_half_sweep (wing_sweep wing_taper_ratio wing_aspect_ratio : ℝ) : ℝ :=
  cos (half_sweep wing_sweep wing_taper_ratio wing_aspect_ratio)

/-- aviary/subsystems/mass/gasp_based/fixed.py:113 -/
noncomputable abbrev struct_span (wing_sweep wing_taper_ratio wing_aspect_ratio wing_span : ℝ) : ℝ :=
  wing_span / (cos_half_sweep wing_sweep wing_taper_ratio wing_aspect_ratio)

/-- aviary/subsystems/mass/gasp_based/fixed.py:114 -/
noncomputable abbrev c_material (wing_sweep wing_taper_ratio wing_aspect_ratio wing_span : ℝ) : ℝ :=
  1 + ((5 / 2) / ((struct_span wing_sweep wing_taper_ratio wing_aspect_ratio wing_span) ^ ((1 /
    2) : ℝ)))

/-- aviary/subsystems/mass/gasp_based/fixed.py:115 -/
noncomputable abbrev c_strut_braced (strut_attachment_location_dimensionless : ℝ) : ℝ :=
  1 - (strut_attachment_location_dimensionless ^ 2)

/-- aviary/subsystems/mass/gasp_based/fixed.py:127 -/
noncomputable abbrev c_gear_loc (landinggear_main_gear_location : ℝ) : ℝ :=
  if landinggear_main_gear_location = 0 then (19 / 20) else 1

/-- aviary/subsystems/mass/gasp_based/fixed.py:148 -/
noncomputable abbrev c_eng_pos (max_mach : ℝ) : ℝ := if max_mach < (3 / 4) then 1 else (21 / 20)

/-- aviary/subsystems/mass/gasp_based/fixed.py:153 -/
noncomputable abbrev c_eng_pos_2 (max_mach : ℝ) : ℝ :=
  if max_mach < (3 / 4) then (49 / 50) else (19 / 20)

/-- aviary/subsystems/mass/gasp_based/fixed.py:152 -/
noncomputable abbrev c_eng_pos_3 (propulsion_total_num_wing_engines max_mach : ℝ) : ℝ :=
  if (propulsion_total_num_wing_engines = 2 ∨ propulsion_total_num_wing_engines = 3) then
    (c_eng_pos_2 max_mach) else (c_eng_pos max_mach)

/-- aviary/subsystems/mass/gasp_based/fixed.py:158 -/
noncomputable abbrev c_eng_pos_4 (max_mach : ℝ) : ℝ :=
  if max_mach < (3 / 4) then (19 / 20) else (9 / 10)

/-- aviary/subsystems/mass/gasp_based/fixed.py:157 -/
noncomputable abbrev c_eng_pos_5 (propulsion_total_num_wing_engines max_mach : ℝ) : ℝ :=
  if propulsion_total_num_wing_engines = 4 then (c_eng_pos_4 max_mach) else (c_eng_pos_3
    propulsion_total_num_wing_engines max_mach)

/-- aviary/subsystems/mass/gasp_based/fixed.py:185 -/
noncomputable abbrev dtanhs_dsc4 (wing_sweep : ℝ) : ℝ := 1 / ((cos wing_sweep) ^ 2)

/-- aviary/subsystems/mass/gasp_based/fixed.py:186 -/
noncomputable abbrev dtanhs_tr (wing_taper_ratio wing_aspect_ratio : ℝ) : ℝ :=
  ((-(1 / wing_aspect_ratio)) * (((1 + wing_taper_ratio) * (-1)) - (1 - wing_taper_ratio))) /
    ((1 + wing_taper_ratio) ^ 2)

/-- aviary/subsystems/mass/gasp_based/fixed.py:189 -/
noncomputable abbrev dtanhs_dar (wing_taper_ratio wing_aspect_ratio : ℝ) : ℝ :=
  ((1 - wing_taper_ratio) / (1 + wing_taper_ratio)) / (wing_aspect_ratio ^ 2)

/-- Output `wing_material_factor` of `MassParameters.compute`, aviary/subsystems/mass/gasp_based/fixed.py:163 -/
noncomputable def out_wing_material_factor (wing_sweep wing_taper_ratio wing_aspect_ratio wing_span : ℝ) : ℝ :=
  c_material wing_sweep wing_taper_ratio wing_aspect_ratio wing_span

/-- Output `c_strut_braced` of `MassParameters.compute`, aviary/subsystems/mass/gasp_based/fixed.py:164 -/
noncomputable def out_c_strut_braced (strut_attachment_location_dimensionless : ℝ) : ℝ :=
  c_strut_braced strut_attachment_location_dimensionless

/-- Output `c_gear_loc` of `MassParameters.compute`, aviary/subsystems/mass/gasp_based/fixed.py:165 -/
noncomputable def out_c_gear_loc (landinggear_main_gear_location : ℝ) : ℝ :=
  c_gear_loc landinggear_main_gear_location

/-- Output `propulsion_engine_position_factor` of `MassParameters.compute`, aviary/subsystems/mass/gasp_based/fixed.py:166 -/
noncomputable def out_propulsion_engine_position_factor (propulsion_total_num_wing_engines max_mach : ℝ) : ℝ :=
  c_eng_pos_5 propulsion_total_num_wing_engines max_mach

/-- Output `half_sweep` of `MassParameters.compute`, aviary/subsystems/mass/gasp_based/fixed.py:167 -/
noncomputable def out_half_sweep (wing_sweep wing_taper_ratio wing_aspect_ratio : ℝ) : ℝ :=
  half_sweep wing_sweep wing_taper_ratio wing_aspect_ratio

/-- Partial of `wing_material_factor` with respect to `wing_span` as set by `MassParameters`, aviary/subsystems/mass/gasp_based/fixed.py:191 -/
noncomputable def J_wing_material_factor__wing_span (wing_sweep wing_taper_ratio wing_aspect_ratio wing_span : ℝ) : ℝ :=
  ((-(5 / 4)) / ((struct_span wing_sweep wing_taper_ratio wing_aspect_ratio wing_span) ^ ((3 /
    2) : ℝ))) * (1 / (cos_half_sweep wing_sweep wing_taper_ratio wing_aspect_ratio))

/-- Partial of `wing_material_factor` with respect to `wing_sweep` as set by `MassParameters`, aviary/subsystems/mass/gasp_based/fixed.py:194 -/
noncomputable def J_wing_material_factor__wing_sweep (wing_sweep wing_taper_ratio wing_aspect_ratio wing_span : ℝ) : ℝ :=
  (((((-(5 / 4)) / ((struct_span wing_sweep wing_taper_ratio wing_aspect_ratio wing_span) ^ ((3
    / 2) : ℝ))) * ((-wing_span) / ((cos_half_sweep wing_sweep wing_taper_ratio
    wing_aspect_ratio) ^ 2))) * (-(sin (half_sweep wing_sweep wing_taper_ratio
    wing_aspect_ratio)))) / (((tan_half_sweep wing_sweep wing_taper_ratio wing_aspect_ratio) ^
    2) + 1)) * (dtanhs_dsc4 wing_sweep)

/-- Partial of `wing_material_factor` with respect to `wing_taper_ratio` as set by `MassParameters`, aviary/subsystems/mass/gasp_based/fixed.py:203 -/
noncomputable def J_wing_material_factor__wing_taper_ratio (wing_sweep wing_taper_ratio wing_aspect_ratio wing_span : ℝ) : ℝ :=
  (((((-(5 / 4)) / ((struct_span wing_sweep wing_taper_ratio wing_aspect_ratio wing_span) ^ ((3
    / 2) : ℝ))) * ((-wing_span) / ((cos_half_sweep wing_sweep wing_taper_ratio
    wing_aspect_ratio) ^ 2))) * (-(sin (half_sweep wing_sweep wing_taper_ratio
    wing_aspect_ratio)))) / (((tan_half_sweep wing_sweep wing_taper_ratio wing_aspect_ratio) ^
    2) + 1)) * (dtanhs_tr wing_taper_ratio wing_aspect_ratio)

/-- Partial of `wing_material_factor` with respect to `wing_aspect_ratio` as set by `MassParameters`, aviary/subsystems/mass/gasp_based/fixed.py:212 -/
noncomputable def J_wing_material_factor__wing_aspect_ratio (wing_sweep wing_taper_ratio wing_aspect_ratio wing_span : ℝ) : ℝ :=
  (((((-(5 / 4)) / ((struct_span wing_sweep wing_taper_ratio wing_aspect_ratio wing_span) ^ ((3
    / 2) : ℝ))) * ((-wing_span) / ((cos_half_sweep wing_sweep wing_taper_ratio
    wing_aspect_ratio) ^ 2))) * (-(sin (half_sweep wing_sweep wing_taper_ratio
    wing_aspect_ratio)))) / (((tan_half_sweep wing_sweep wing_taper_ratio wing_aspect_ratio) ^
    2) + 1)) * (dtanhs_dar wing_taper_ratio wing_aspect_ratio)

/-- Partial of `propulsion_engine_position_factor` with respect to `max_mach` as set by `MassParameters`, aviary/subsystems/mass/gasp_based/fixed.py:235 -/
noncomputable def J_propulsion_engine_position_factor__max_mach : ℝ := 0

/-- Partial of `half_sweep` with respect to `wing_sweep` as set by `MassParameters`, aviary/subsystems/mass/gasp_based/fixed.py:237 -/
noncomputable def J_half_sweep__wing_sweep (wing_sweep wing_taper_ratio wing_aspect_ratio : ℝ) : ℝ :=
  (1 / (((tan_half_sweep wing_sweep wing_taper_ratio wing_aspect_ratio) ^ 2) + 1)) *
    (dtanhs_dsc4 wing_sweep)

/-- Partial of `half_sweep` with respect to `wing_taper_ratio` as set by `MassParameters`, aviary/subsystems/mass/gasp_based/fixed.py:238 -/
noncomputable def J_half_sweep__wing_taper_ratio (wing_sweep wing_taper_ratio wing_aspect_ratio : ℝ) : ℝ :=
  (1 / (((tan_half_sweep wing_sweep wing_taper_ratio wing_aspect_ratio) ^ 2) + 1)) * (dtanhs_tr
    wing_taper_ratio wing_aspect_ratio)

/-- Partial of `half_sweep` with respect to `wing_aspect_ratio` as set by `MassParameters`, aviary/subsystems/mass/gasp_based/fixed.py:239 -/
noncomputable def J_half_sweep__wing_aspect_ratio (wing_sweep wing_taper_ratio wing_aspect_ratio : ℝ) : ℝ :=
  (1 / (((tan_half_sweep wing_sweep wing_taper_ratio wing_aspect_ratio) ^ 2) + 1)) * (dtanhs_dar
    wing_taper_ratio wing_aspect_ratio)

/-- Partial of `c_strut_braced` with respect to `strut_attachment_location_dimensionless` as set by `MassParameters`, aviary/subsystems/mass/gasp_based/fixed.py:241 -/
noncomputable def J_c_strut_braced__strut_attachment_location_dimensionless (strut_attachment_location_dimensionless : ℝ) : ℝ :=
  (-2) * strut_attachment_location_dimensionless

/-- Partial of `c_gear_loc` with respect to `landinggear_main_gear_location` as set by `MassParameters`, aviary/subsystems/mass/gasp_based/fixed.py:248 -/
noncomputable def J_c_gear_loc__landinggear_main_gear_location : ℝ := 0

theorem d_wing_material_factor__wing_sweep (wing_sweep wing_taper_ratio wing_aspect_ratio
    wing_span : ℝ) (h0 : cos wing_sweep ≠ 0) (h1 : 0 < wing_taper_ratio) (h2 : 0 <
    wing_aspect_ratio) (h3 : cos (arctan ((tan wing_sweep) - (((1 - wing_taper_ratio) / (1 +
    wing_taper_ratio)) / wing_aspect_ratio))) ≠ 0) (h4 : 0 < wing_span) (h5 : 0 < cos (arctan
    ((tan wing_sweep) - (((1 - wing_taper_ratio) / (1 + wing_taper_ratio)) / wing_aspect_ratio))))
    :
    HasDerivAt (fun t => out_wing_material_factor t wing_taper_ratio wing_aspect_ratio wing_span) (J_wing_material_factor__wing_sweep wing_sweep wing_taper_ratio wing_aspect_ratio wing_span) wing_sweep := by
  have e0 : ∀ x : ℝ, 0 < x → x ^ ((3 / 2) : ℝ) = x ^ ((1 / 2) : ℝ) * x ^ 1 := fun x hx => rpow_up hx 1 (by norm_num)
  simp only [out_wing_material_factor, J_wing_material_factor__wing_sweep, dtanhs_dsc4, c_material, struct_span, cos_half_sweep, half_sweep, tan_half_sweep]
  (apply hasDerivAt_of_eq; on_goal 1 => (repeat' comp_step))
  all_goals try comp_side
  all_goals try simp (disch := first | assumption | positivity) only [mul_rpow, div_rpow, e0, div_mul_eq_div_div, div_half, inv_half]
  all_goals try simp only [mul_zero, zero_mul, add_zero, zero_add, sub_zero, zero_sub, mul_one, one_mul]
  all_goals try push_cast
  all_goals comp_eq

theorem d_wing_material_factor__wing_taper_ratio (wing_sweep wing_taper_ratio wing_aspect_ratio
    wing_span : ℝ) (h0 : cos wing_sweep ≠ 0) (h1 : 0 < wing_taper_ratio) (h2 : 0 <
    wing_aspect_ratio) (h3 : cos (arctan ((tan wing_sweep) - (((1 - wing_taper_ratio) / (1 +
    wing_taper_ratio)) / wing_aspect_ratio))) ≠ 0) (h4 : 0 < wing_span) (h5 : 0 < cos (arctan
    ((tan wing_sweep) - (((1 - wing_taper_ratio) / (1 + wing_taper_ratio)) / wing_aspect_ratio))))
    :
    HasDerivAt (fun t => out_wing_material_factor wing_sweep t wing_aspect_ratio wing_span) (J_wing_material_factor__wing_taper_ratio wing_sweep wing_taper_ratio wing_aspect_ratio wing_span) wing_taper_ratio := by
  have e0 : ∀ x : ℝ, 0 < x → x ^ ((3 / 2) : ℝ) = x ^ ((1 / 2) : ℝ) * x ^ 1 := fun x hx => rpow_up hx 1 (by norm_num)
  simp only [out_wing_material_factor, J_wing_material_factor__wing_taper_ratio, dtanhs_tr, c_material, struct_span, cos_half_sweep, half_sweep, tan_half_sweep]
  (apply hasDerivAt_of_eq; on_goal 1 => (repeat' comp_step))
  all_goals try comp_side
  all_goals try simp (disch := first | assumption | positivity) only [mul_rpow, div_rpow, e0, div_mul_eq_div_div, div_half, inv_half]
  all_goals try simp only [mul_zero, zero_mul, add_zero, zero_add, sub_zero, zero_sub, mul_one, one_mul]
  all_goals try push_cast
  all_goals comp_eq

theorem d_wing_material_factor__wing_aspect_ratio (wing_sweep wing_taper_ratio wing_aspect_ratio
    wing_span : ℝ) (h0 : cos wing_sweep ≠ 0) (h1 : 0 < wing_taper_ratio) (h2 : 0 <
    wing_aspect_ratio) (h3 : cos (arctan ((tan wing_sweep) - (((1 - wing_taper_ratio) / (1 +
    wing_taper_ratio)) / wing_aspect_ratio))) ≠ 0) (h4 : 0 < wing_span) (h5 : 0 < cos (arctan
    ((tan wing_sweep) - (((1 - wing_taper_ratio) / (1 + wing_taper_ratio)) / wing_aspect_ratio))))
    :
    HasDerivAt (fun t => out_wing_material_factor wing_sweep wing_taper_ratio t wing_span) (J_wing_material_factor__wing_aspect_ratio wing_sweep wing_taper_ratio wing_aspect_ratio wing_span) wing_aspect_ratio := by
  have e0 : ∀ x : ℝ, 0 < x → x ^ ((3 / 2) : ℝ) = x ^ ((1 / 2) : ℝ) * x ^ 1 := fun x hx => rpow_up hx 1 (by norm_num)
  simp only [out_wing_material_factor, J_wing_material_factor__wing_aspect_ratio, dtanhs_dar, c_material, struct_span, cos_half_sweep, half_sweep, tan_half_sweep]
  (apply hasDerivAt_of_eq; on_goal 1 => (repeat' comp_step))
  all_goals try comp_side
  all_goals try simp (disch := first | assumption | positivity) only [mul_rpow, div_rpow, e0, div_mul_eq_div_div, div_half, inv_half]
  all_goals try simp only [mul_zero, zero_mul, add_zero, zero_add, sub_zero, zero_sub, mul_one, one_mul]
  all_goals try push_cast
  all_goals comp_eq

theorem d_wing_material_factor__wing_span (wing_sweep wing_taper_ratio wing_aspect_ratio wing_span
    : ℝ) (h0 : cos wing_sweep ≠ 0) (h1 : 0 < wing_taper_ratio) (h2 : 0 < wing_aspect_ratio) (h3 :
    cos (arctan ((tan wing_sweep) - (((1 - wing_taper_ratio) / (1 + wing_taper_ratio)) /
    wing_aspect_ratio))) ≠ 0) (h4 : 0 < wing_span) (h5 : 0 < cos (arctan ((tan wing_sweep) - (((1
    - wing_taper_ratio) / (1 + wing_taper_ratio)) / wing_aspect_ratio)))) :
    HasDerivAt (fun t => out_wing_material_factor wing_sweep wing_taper_ratio wing_aspect_ratio t) (J_wing_material_factor__wing_span wing_sweep wing_taper_ratio wing_aspect_ratio wing_span) wing_span := by
  have e0 : ∀ x : ℝ, 0 < x → x ^ ((3 / 2) : ℝ) = x ^ ((1 / 2) : ℝ) * x ^ 1 := fun x hx => rpow_up hx 1 (by norm_num)
  simp only [out_wing_material_factor, J_wing_material_factor__wing_span, c_material, struct_span, cos_half_sweep, half_sweep, tan_half_sweep]
  (apply hasDerivAt_of_eq; on_goal 1 => (repeat' comp_step))
  all_goals try comp_side
  all_goals try simp (disch := first | assumption | positivity) only [mul_rpow, div_rpow, e0, div_mul_eq_div_div, div_half, inv_half]
  all_goals try simp only [mul_zero, zero_mul, add_zero, zero_add, sub_zero, zero_sub, mul_one, one_mul]
  all_goals try push_cast
  all_goals comp_eq

theorem d_c_strut_braced__strut_attachment_location_dimensionless
    (strut_attachment_location_dimensionless : ℝ)  :
    HasDerivAt (fun t => out_c_strut_braced t) (J_c_strut_braced__strut_attachment_location_dimensionless strut_attachment_location_dimensionless) strut_attachment_location_dimensionless := by
  simp only [out_c_strut_braced, J_c_strut_braced__strut_attachment_location_dimensionless, c_strut_braced]
  (apply hasDerivAt_of_eq; on_goal 1 => (repeat' comp_step))
  all_goals try comp_side
  all_goals try simp only [mul_zero, zero_mul, add_zero, zero_add, sub_zero, zero_sub, mul_one, one_mul]
  all_goals try push_cast
  all_goals comp_eq

theorem d_c_gear_loc__landinggear_main_gear_location (landinggear_main_gear_location : ℝ) (h0 :
    landinggear_main_gear_location ≠ 0) :
    HasDerivAt (fun t => out_c_gear_loc t) (J_c_gear_loc__landinggear_main_gear_location) landinggear_main_gear_location := by
  simp only [out_c_gear_loc, J_c_gear_loc__landinggear_main_gear_location, c_gear_loc]
  try split_ifs
  all_goals (apply hasDerivAt_of_eq; on_goal 1 => (repeat' comp_step))
  all_goals try comp_side
  all_goals try split_ifs
  all_goals try (exfalso; linarith)
  all_goals try simp only [mul_zero, zero_mul, add_zero, zero_add, sub_zero, zero_sub, mul_one, one_mul]
  all_goals try push_cast
  all_goals comp_eq

theorem d_propulsion_engine_position_factor__max_mach (propulsion_total_num_wing_engines max_mach
    : ℝ) (h0 : max_mach ≠ 3 / 4) :
    HasDerivAt (fun t => out_propulsion_engine_position_factor propulsion_total_num_wing_engines t) (J_propulsion_engine_position_factor__max_mach) max_mach := by
  simp only [out_propulsion_engine_position_factor, J_propulsion_engine_position_factor__max_mach, c_eng_pos_5, c_eng_pos_3, c_eng_pos, c_eng_pos_2, c_eng_pos_4]
  try split_ifs
  all_goals (apply hasDerivAt_of_eq; on_goal 1 => (repeat' comp_step))
  all_goals try comp_side
  all_goals try split_ifs
  all_goals try (exfalso; linarith)
  all_goals try simp only [mul_zero, zero_mul, add_zero, zero_add, sub_zero, zero_sub, mul_one, one_mul]
  all_goals try push_cast
  all_goals comp_eq

theorem d_half_sweep__wing_sweep (wing_sweep wing_taper_ratio wing_aspect_ratio : ℝ) (h0 : cos
    wing_sweep ≠ 0) (h1 : 0 < wing_taper_ratio) (h2 : 0 < wing_aspect_ratio) :
    HasDerivAt (fun t => out_half_sweep t wing_taper_ratio wing_aspect_ratio) (J_half_sweep__wing_sweep wing_sweep wing_taper_ratio wing_aspect_ratio) wing_sweep := by
  simp only [out_half_sweep, J_half_sweep__wing_sweep, dtanhs_dsc4, half_sweep, tan_half_sweep]
  (apply hasDerivAt_of_eq; on_goal 1 => (repeat' comp_step))
  all_goals try comp_side
  all_goals try simp only [mul_zero, zero_mul, add_zero, zero_add, sub_zero, zero_sub, mul_one, one_mul]
  all_goals try push_cast
  all_goals comp_eq

theorem d_half_sweep__wing_taper_ratio (wing_sweep wing_taper_ratio wing_aspect_ratio : ℝ) (h0 :
    cos wing_sweep ≠ 0) (h1 : 0 < wing_taper_ratio) (h2 : 0 < wing_aspect_ratio) :
    HasDerivAt (fun t => out_half_sweep wing_sweep t wing_aspect_ratio) (J_half_sweep__wing_taper_ratio wing_sweep wing_taper_ratio wing_aspect_ratio) wing_taper_ratio := by
  simp only [out_half_sweep, J_half_sweep__wing_taper_ratio, dtanhs_tr, half_sweep, tan_half_sweep]
  (apply hasDerivAt_of_eq; on_goal 1 => (repeat' comp_step))
  all_goals try comp_side
  all_goals try simp only [mul_zero, zero_mul, add_zero, zero_add, sub_zero, zero_sub, mul_one, one_mul]
  all_goals try push_cast
  all_goals comp_eq

theorem d_half_sweep__wing_aspect_ratio (wing_sweep wing_taper_ratio wing_aspect_ratio : ℝ) (h0 :
    cos wing_sweep ≠ 0) (h1 : 0 < wing_taper_ratio) (h2 : 0 < wing_aspect_ratio) :
    HasDerivAt (fun t => out_half_sweep wing_sweep wing_taper_ratio t) (J_half_sweep__wing_aspect_ratio wing_sweep wing_taper_ratio wing_aspect_ratio) wing_aspect_ratio := by
  simp only [out_half_sweep, J_half_sweep__wing_aspect_ratio, dtanhs_dar, half_sweep, tan_half_sweep]
  (apply hasDerivAt_of_eq; on_goal 1 => (repeat' comp_step))
  all_goals try comp_side
  all_goals try simp only [mul_zero, zero_mul, add_zero, zero_add, sub_zero, zero_sub, mul_one, one_mul]
  all_goals try push_cast
  all_goals comp_eq

/-- Every partial derivative set by `MassParameters` is the derivative of its output. -/
theorem partials (propulsion_total_num_wing_engines wing_sweep wing_taper_ratio wing_aspect_ratio
    wing_span max_mach strut_attachment_location_dimensionless landinggear_main_gear_location : ℝ)
    (h0 : cos wing_sweep ≠ 0) (h1 : 0 < wing_taper_ratio) (h2 : 0 < wing_aspect_ratio) (h3 : cos
    (arctan ((tan wing_sweep) - (((1 - wing_taper_ratio) / (1 + wing_taper_ratio)) /
    wing_aspect_ratio))) ≠ 0) (h4 : 0 < wing_span) (h5 : 0 < cos (arctan ((tan wing_sweep) - (((1
    - wing_taper_ratio) / (1 + wing_taper_ratio)) / wing_aspect_ratio)))) (h6 :
    landinggear_main_gear_location ≠ 0) (h7 : max_mach ≠ 3 / 4) :
    HasDerivAt (fun t => out_wing_material_factor t wing_taper_ratio wing_aspect_ratio wing_span)
      (J_wing_material_factor__wing_sweep wing_sweep wing_taper_ratio wing_aspect_ratio wing_span)
      wing_sweep ∧
    HasDerivAt (fun t => out_wing_material_factor wing_sweep t wing_aspect_ratio wing_span)
      (J_wing_material_factor__wing_taper_ratio wing_sweep wing_taper_ratio wing_aspect_ratio
      wing_span) wing_taper_ratio ∧
    HasDerivAt (fun t => out_wing_material_factor wing_sweep wing_taper_ratio t wing_span)
      (J_wing_material_factor__wing_aspect_ratio wing_sweep wing_taper_ratio wing_aspect_ratio
      wing_span) wing_aspect_ratio ∧
    HasDerivAt (fun t => out_wing_material_factor wing_sweep wing_taper_ratio wing_aspect_ratio t)
      (J_wing_material_factor__wing_span wing_sweep wing_taper_ratio wing_aspect_ratio wing_span)
      wing_span ∧
    HasDerivAt (fun t => out_c_strut_braced t)
      (J_c_strut_braced__strut_attachment_location_dimensionless
      strut_attachment_location_dimensionless) strut_attachment_location_dimensionless ∧
    HasDerivAt (fun t => out_c_gear_loc t) (J_c_gear_loc__landinggear_main_gear_location)
      landinggear_main_gear_location ∧
    HasDerivAt (fun t => out_propulsion_engine_position_factor propulsion_total_num_wing_engines t)
      (J_propulsion_engine_position_factor__max_mach) max_mach ∧
    HasDerivAt (fun t => out_half_sweep t wing_taper_ratio wing_aspect_ratio)
      (J_half_sweep__wing_sweep wing_sweep wing_taper_ratio wing_aspect_ratio) wing_sweep ∧
    HasDerivAt (fun t => out_half_sweep wing_sweep t wing_aspect_ratio)
      (J_half_sweep__wing_taper_ratio wing_sweep wing_taper_ratio wing_aspect_ratio)
      wing_taper_ratio ∧
    HasDerivAt (fun t => out_half_sweep wing_sweep wing_taper_ratio t)
      (J_half_sweep__wing_aspect_ratio wing_sweep wing_taper_ratio wing_aspect_ratio)
      wing_aspect_ratio :=
  ⟨d_wing_material_factor__wing_sweep _ _ _ _ h0 h1 h2 h3 h4 h5,
    d_wing_material_factor__wing_taper_ratio _ _ _ _ h0 h1 h2 h3 h4 h5,
    d_wing_material_factor__wing_aspect_ratio _ _ _ _ h0 h1 h2 h3 h4 h5,
    d_wing_material_factor__wing_span _ _ _ _ h0 h1 h2 h3 h4 h5,
    d_c_strut_braced__strut_attachment_location_dimensionless _,
    d_c_gear_loc__landinggear_main_gear_location _ h6,
    d_propulsion_engine_position_factor__max_mach _ _ h7, d_half_sweep__wing_sweep _ _ _ h0 h1 h2,
    d_half_sweep__wing_taper_ratio _ _ _ h0 h1 h2, d_half_sweep__wing_aspect_ratio _ _ _ h0 h1 h2⟩

example : ∃ propulsion_total_num_wing_engines wing_sweep wing_taper_ratio wing_aspect_ratio
      wing_span max_mach strut_attachment_location_dimensionless landinggear_main_gear_location :
      ℝ,
      cos wing_sweep ≠ 0 ∧
      0 < wing_taper_ratio ∧
      0 < wing_aspect_ratio ∧
      cos (arctan ((tan wing_sweep) - (((1 - wing_taper_ratio) / (1 + wing_taper_ratio)) /
        wing_aspect_ratio))) ≠ 0 ∧
      0 < wing_span ∧
      0 < cos (arctan ((tan wing_sweep) - (((1 - wing_taper_ratio) / (1 + wing_taper_ratio)) /
        wing_aspect_ratio))) ∧
      landinggear_main_gear_location ≠ 0 ∧
      max_mach ≠ 3 / 4 :=
  ⟨1, 0, 1, 1, 1, 1, 1, 1, by comp_example, by comp_example, by comp_example, by comp_example, by
    comp_example, by comp_example, by comp_example, by comp_example⟩

end Verif.Comp.MassGaspBasedFixed.MassParameters_no_smooth

namespace Verif.Comp.MassGaspBasedFixed.VerticalTailMass
open Real

/-- aviary/subsystems/mass/gasp_based/fixed.py:969 -/
noncomputable def tan_sweep_vtail_le (verticaltail_taper_ratio verticaltail_aspect_ratio verticaltail_sweep : ℝ) : ℝ :=
  ((((1 - verticaltail_taper_ratio) / (1 + verticaltail_taper_ratio)) /
    verticaltail_aspect_ratio) / 2) + (tan verticaltail_sweep)

/-- aviary/subsystems/mass/gasp_based/fixed.py:972 -/
noncomputable def fh (design_gross_mass horizontaltail_mass_coefficient fuselage_length horizontaltail_span landinggear_tail_hook_mass_scaler horizontaltail_taper_ratio : ℝ) : ℝ :=
  (((((design_gross_mass * horizontaltail_mass_coefficient) * fuselage_length) *
    horizontaltail_span) * landinggear_tail_hook_mass_scaler) * (1 + (2 *
    horizontaltail_taper_ratio))) / (1000000 * (1 + horizontaltail_taper_ratio))

/-- aviary/subsystems/mass/gasp_based/fixed.py:981 -/
noncomputable def fv (verticaltail_taper_ratio verticaltail_span design_gross_mass fuselage_length verticaltail_mass_coefficient wing_span : ℝ) : ℝ :=
  (((((design_gross_mass * verticaltail_mass_coefficient) * (fuselage_length + wing_span)) *
    verticaltail_span) * (1 + (2 * verticaltail_taper_ratio))) / (1000000 * (1 +
    verticaltail_taper_ratio))) / 2

/-- aviary/subsystems/mass/gasp_based/fixed.py:1050 -/
noncomputable def dtansweepvtaille_dtaperratiovtail (verticaltail_taper_ratio verticaltail_aspect_ratio : ℝ) : ℝ :=
  ((-(((1 + verticaltail_taper_ratio) * verticaltail_aspect_ratio) * 2)) - (((1 -
    verticaltail_taper_ratio) * 2) * verticaltail_aspect_ratio)) / ((((1 +
    verticaltail_taper_ratio) * verticaltail_aspect_ratio) * 2) ^ 2)

/-- aviary/subsystems/mass/gasp_based/fixed.py:1053 -/
noncomputable def dtansweepvtaille_darvtail (verticaltail_taper_ratio verticaltail_aspect_ratio : ℝ) : ℝ :=
  (((-(1 - verticaltail_taper_ratio)) / ((((1 + verticaltail_taper_ratio) *
    verticaltail_aspect_ratio) * 2) ^ 2)) * 2) * (1 + verticaltail_taper_ratio)

/-- aviary/subsystems/mass/gasp_based/fixed.py:1059 -/
noncomputable def dtansweepvtaille_dquartersweeptail (verticaltail_sweep : ℝ) : ℝ :=
  (1 / (cos verticaltail_sweep)) ^ 2

/-- aviary/subsystems/mass/gasp_based/fixed.py:1061 -/
noncomputable def dfh_dgrosswtinitial (horizontaltail_mass_coefficient fuselage_length horizontaltail_span landinggear_tail_hook_mass_scaler horizontaltail_taper_ratio : ℝ) : ℝ :=
  ((((horizontaltail_mass_coefficient * fuselage_length) * horizontaltail_span) *
    landinggear_tail_hook_mass_scaler) * (1 + (2 * horizontaltail_taper_ratio))) / (1000000 * (1
    + horizontaltail_taper_ratio))

/-- aviary/subsystems/mass/gasp_based/fixed.py:1069 -/
noncomputable def dfh_dcoefhtail (design_gross_mass fuselage_length horizontaltail_span landinggear_tail_hook_mass_scaler horizontaltail_taper_ratio : ℝ) : ℝ :=
  ((((design_gross_mass * fuselage_length) * horizontaltail_span) *
    landinggear_tail_hook_mass_scaler) * (1 + (2 * horizontaltail_taper_ratio))) / (1000000 * (1
    + horizontaltail_taper_ratio))

/-- aviary/subsystems/mass/gasp_based/fixed.py:1077 -/
noncomputable def dfh_dfuslen (design_gross_mass horizontaltail_mass_coefficient horizontaltail_span landinggear_tail_hook_mass_scaler horizontaltail_taper_ratio : ℝ) : ℝ :=
  ((((design_gross_mass * horizontaltail_mass_coefficient) * horizontaltail_span) *
    landinggear_tail_hook_mass_scaler) * (1 + (2 * horizontaltail_taper_ratio))) / (1000000 * (1
    + horizontaltail_taper_ratio))

/-- aviary/subsystems/mass/gasp_based/fixed.py:1085 -/
noncomputable def dfh_dspanhtail (design_gross_mass horizontaltail_mass_coefficient fuselage_length landinggear_tail_hook_mass_scaler horizontaltail_taper_ratio : ℝ) : ℝ :=
  ((((design_gross_mass * horizontaltail_mass_coefficient) * fuselage_length) *
    landinggear_tail_hook_mass_scaler) * (1 + (2 * horizontaltail_taper_ratio))) / (1000000 * (1
    + horizontaltail_taper_ratio))

/-- aviary/subsystems/mass/gasp_based/fixed.py:1093 -/
noncomputable def dfh_dhookfac (design_gross_mass horizontaltail_mass_coefficient fuselage_length horizontaltail_span horizontaltail_taper_ratio : ℝ) : ℝ :=
  ((((design_gross_mass * horizontaltail_mass_coefficient) * fuselage_length) *
    horizontaltail_span) * (1 + (2 * horizontaltail_taper_ratio))) / (1000000 * (1 +
    horizontaltail_taper_ratio))

/-- aviary/subsystems/mass/gasp_based/fixed.py:1101 -/
noncomputable def dfh_dtaperratiohtail (design_gross_mass horizontaltail_mass_coefficient fuselage_length horizontaltail_span landinggear_tail_hook_mass_scaler horizontaltail_taper_ratio : ℝ) : ℝ :=
  (((((design_gross_mass * horizontaltail_mass_coefficient) * fuselage_length) *
    horizontaltail_span) * landinggear_tail_hook_mass_scaler) * (((1000000 * (1 +
    horizontaltail_taper_ratio)) * 2) - ((1 + (2 * horizontaltail_taper_ratio)) * 1000000))) /
    ((1000000 * (1 + horizontaltail_taper_ratio)) ^ 2)

/-- aviary/subsystems/mass/gasp_based/fixed.py:1114 -/
noncomputable def dfv_dgrosswtinitial (verticaltail_taper_ratio verticaltail_span fuselage_length verticaltail_mass_coefficient wing_span : ℝ) : ℝ :=
  (((verticaltail_mass_coefficient * (fuselage_length + wing_span)) * verticaltail_span) * (1 +
    (2 * verticaltail_taper_ratio))) / (2000000 * (1 + verticaltail_taper_ratio))

/-- aviary/subsystems/mass/gasp_based/fixed.py:1121 -/
noncomputable def dfv_dcoefvtail (verticaltail_taper_ratio verticaltail_span design_gross_mass fuselage_length wing_span : ℝ) : ℝ :=
  (((design_gross_mass * (fuselage_length + wing_span)) * verticaltail_span) * (1 + (2 *
    verticaltail_taper_ratio))) / (2000000 * (1 + verticaltail_taper_ratio))

/-- aviary/subsystems/mass/gasp_based/fixed.py:1128 -/
noncomputable def dfv_dfuslen (verticaltail_taper_ratio verticaltail_span design_gross_mass verticaltail_mass_coefficient : ℝ) : ℝ :=
  (((design_gross_mass * verticaltail_mass_coefficient) * verticaltail_span) * (1 + (2 *
    verticaltail_taper_ratio))) / (2000000 * (1 + verticaltail_taper_ratio))

/-- aviary/subsystems/mass/gasp_based/fixed.py:1135 -/
noncomputable def dfv_dwingspan (verticaltail_taper_ratio verticaltail_span design_gross_mass verticaltail_mass_coefficient : ℝ) : ℝ :=
  (((design_gross_mass * verticaltail_mass_coefficient) * verticaltail_span) * (1 + (2 *
    verticaltail_taper_ratio))) / (2000000 * (1 + verticaltail_taper_ratio))

/-- aviary/subsystems/mass/gasp_based/fixed.py:1142 -/
noncomputable def dfv_dspanvtail (verticaltail_taper_ratio design_gross_mass fuselage_length verticaltail_mass_coefficient wing_span : ℝ) : ℝ :=
  (((design_gross_mass * verticaltail_mass_coefficient) * (fuselage_length + wing_span)) * (1 +
    (2 * verticaltail_taper_ratio))) / (2000000 * (1 + verticaltail_taper_ratio))

/-- aviary/subsystems/mass/gasp_based/fixed.py:1149 -/
noncomputable def dfv_dtaperratiovtail (verticaltail_taper_ratio verticaltail_span design_gross_mass fuselage_length verticaltail_mass_coefficient wing_span : ℝ) : ℝ :=
  ((((design_gross_mass * verticaltail_mass_coefficient) * (fuselage_length + wing_span)) *
    verticaltail_span) * (((2000000 * (1 + verticaltail_taper_ratio)) * 2) - (((1 + (2 *
    verticaltail_taper_ratio)) * 2) * 1000000))) / ((2000000 * (1 + verticaltail_taper_ratio)) ^
    2)

/-- aviary/subsystems/mass/gasp_based/fixed.py:1161 -/
noncomputable def temp (verticaltail_taper_ratio : ℝ) : ℝ :=
  (((3 * (1 + verticaltail_taper_ratio)) * 2) - ((1 + (2 * verticaltail_taper_ratio)) * 3)) /
    ((3 * (1 + verticaltail_taper_ratio)) ^ 2)

/-- aviary/subsystems/mass/gasp_based/fixed.py:1187 -/
noncomputable def temp_2 (min_dive_vel verticaltail_area verticaltail_moment_arm verticaltail_thickness_to_chord verticaltail_root_chord : ℝ) : ℝ :=
  380 * (((verticaltail_area * ((log min_dive_vel) / (log 10))) / (((100 *
    verticaltail_moment_arm) * verticaltail_thickness_to_chord) * verticaltail_root_chord)) ^
    ((27 / 50) : ℝ))

/-- Output `loc_mac_vtail` of `VerticalTailMass.compute`, aviary/subsystems/mass/gasp_based/fixed.py:990 -/
noncomputable def out_loc_mac_vtail (verticaltail_taper_ratio verticaltail_aspect_ratio verticaltail_sweep verticaltail_span : ℝ) : ℝ :=
  (((verticaltail_span * (tan_sweep_vtail_le verticaltail_taper_ratio verticaltail_aspect_ratio
    verticaltail_sweep)) * (1 + (2 * verticaltail_taper_ratio))) / 3) / (1 +
    verticaltail_taper_ratio)

/-- Output `verticaltail_mass` of `VerticalTailMass.compute`, aviary/subsystems/mass/gasp_based/fixed.py:997 -/
noncomputable def out_verticaltail_mass (verticaltail_taper_ratio verticaltail_span design_gross_mass horizontaltail_mass_coefficient fuselage_length horizontaltail_span landinggear_tail_hook_mass_scaler horizontaltail_taper_ratio verticaltail_mass_coefficient wing_span min_dive_vel horizontaltail_vertical_tail_mount_location verticaltail_area verticaltail_moment_arm verticaltail_thickness_to_chord verticaltail_root_chord verticaltail_mass_scaler : ℝ) : ℝ :=
  verticaltail_mass_scaler * (380 * ((((((fv verticaltail_taper_ratio verticaltail_span
    design_gross_mass fuselage_length verticaltail_mass_coefficient wing_span) +
    ((horizontaltail_vertical_tail_mount_location * (fh design_gross_mass
    horizontaltail_mass_coefficient fuselage_length horizontaltail_span
    landinggear_tail_hook_mass_scaler horizontaltail_taper_ratio)) / 2)) * verticaltail_area) *
    ((log min_dive_vel) / (log 10))) / (((100 * verticaltail_moment_arm) *
    verticaltail_thickness_to_chord) * verticaltail_root_chord)) ^ ((27 / 50) : ℝ)))

/-- Partial of `loc_mac_vtail` with respect to `verticaltail_span` as set by `VerticalTailMass`, aviary/subsystems/mass/gasp_based/fixed.py:1165 -/
noncomputable def J_loc_mac_vtail__verticaltail_span (verticaltail_taper_ratio verticaltail_aspect_ratio verticaltail_sweep : ℝ) : ℝ :=
  (((tan_sweep_vtail_le verticaltail_taper_ratio verticaltail_aspect_ratio verticaltail_sweep) *
    (1 + (2 * verticaltail_taper_ratio))) / 3) / (1 + verticaltail_taper_ratio)

/-- Partial of `loc_mac_vtail` with respect to `verticaltail_taper_ratio` as set by `VerticalTailMass`, aviary/subsystems/mass/gasp_based/fixed.py:1168 -/
noncomputable def J_loc_mac_vtail__verticaltail_taper_ratio (verticaltail_taper_ratio verticaltail_aspect_ratio verticaltail_sweep verticaltail_span : ℝ) : ℝ :=
  verticaltail_span * ((((dtansweepvtaille_dtaperratiovtail verticaltail_taper_ratio
    verticaltail_aspect_ratio) * (1 + (2 * verticaltail_taper_ratio))) / (3 * (1 +
    verticaltail_taper_ratio))) + ((tan_sweep_vtail_le verticaltail_taper_ratio
    verticaltail_aspect_ratio verticaltail_sweep) * (temp verticaltail_taper_ratio)))

/-- Partial of `loc_mac_vtail` with respect to `verticaltail_aspect_ratio` as set by `VerticalTailMass`, aviary/subsystems/mass/gasp_based/fixed.py:1174 -/
noncomputable def J_loc_mac_vtail__verticaltail_aspect_ratio (verticaltail_taper_ratio verticaltail_aspect_ratio verticaltail_span : ℝ) : ℝ :=
  (((dtansweepvtaille_darvtail verticaltail_taper_ratio verticaltail_aspect_ratio) *
    verticaltail_span) * (1 + (2 * verticaltail_taper_ratio))) / (3 * (1 +
    verticaltail_taper_ratio))

/-- Partial of `loc_mac_vtail` with respect to `verticaltail_sweep` as set by `VerticalTailMass`, aviary/subsystems/mass/gasp_based/fixed.py:1180 -/
noncomputable def J_loc_mac_vtail__verticaltail_sweep (verticaltail_taper_ratio verticaltail_sweep verticaltail_span : ℝ) : ℝ :=
  (((dtansweepvtaille_dquartersweeptail verticaltail_sweep) * verticaltail_span) * (1 + (2 *
    verticaltail_taper_ratio))) / (3 * (1 + verticaltail_taper_ratio))

/-- Partial of `verticaltail_mass` with respect to `design_gross_mass` as set by `VerticalTailMass`, aviary/subsystems/mass/gasp_based/fixed.py:1197 -/
noncomputable def J_verticaltail_mass__design_gross_mass (verticaltail_taper_ratio verticaltail_span design_gross_mass horizontaltail_mass_coefficient fuselage_length horizontaltail_span landinggear_tail_hook_mass_scaler horizontaltail_taper_ratio verticaltail_mass_coefficient wing_span min_dive_vel horizontaltail_vertical_tail_mount_location verticaltail_area verticaltail_moment_arm verticaltail_thickness_to_chord verticaltail_root_chord : ℝ) : ℝ :=
  (((temp_2 min_dive_vel verticaltail_area verticaltail_moment_arm
    verticaltail_thickness_to_chord verticaltail_root_chord) * (27 / 50)) * (((fv
    verticaltail_taper_ratio verticaltail_span design_gross_mass fuselage_length
    verticaltail_mass_coefficient wing_span) + ((horizontaltail_vertical_tail_mount_location *
    (fh design_gross_mass horizontaltail_mass_coefficient fuselage_length horizontaltail_span
    landinggear_tail_hook_mass_scaler horizontaltail_taper_ratio)) / 2)) ^ ((-(23 / 50)) : ℝ)))
    * ((dfv_dgrosswtinitial verticaltail_taper_ratio verticaltail_span fuselage_length
    verticaltail_mass_coefficient wing_span) + ((horizontaltail_vertical_tail_mount_location *
    (dfh_dgrosswtinitial horizontaltail_mass_coefficient fuselage_length horizontaltail_span
    landinggear_tail_hook_mass_scaler horizontaltail_taper_ratio)) / 2))

/-- Partial of `verticaltail_mass` with respect to `verticaltail_mass_coefficient` as set by `VerticalTailMass`, aviary/subsystems/mass/gasp_based/fixed.py:1203 -/
noncomputable def J_verticaltail_mass__verticaltail_mass_coefficient (verticaltail_taper_ratio verticaltail_span design_gross_mass horizontaltail_mass_coefficient fuselage_length horizontaltail_span landinggear_tail_hook_mass_scaler horizontaltail_taper_ratio verticaltail_mass_coefficient wing_span min_dive_vel horizontaltail_vertical_tail_mount_location verticaltail_area verticaltail_moment_arm verticaltail_thickness_to_chord verticaltail_root_chord : ℝ) : ℝ :=
  (((temp_2 min_dive_vel verticaltail_area verticaltail_moment_arm
    verticaltail_thickness_to_chord verticaltail_root_chord) * (27 / 50)) * (((fv
    verticaltail_taper_ratio verticaltail_span design_gross_mass fuselage_length
    verticaltail_mass_coefficient wing_span) + ((horizontaltail_vertical_tail_mount_location *
    (fh design_gross_mass horizontaltail_mass_coefficient fuselage_length horizontaltail_span
    landinggear_tail_hook_mass_scaler horizontaltail_taper_ratio)) / 2)) ^ ((-(23 / 50)) : ℝ)))
    * (dfv_dcoefvtail verticaltail_taper_ratio verticaltail_span design_gross_mass
    fuselage_length wing_span)

/-- Partial of `verticaltail_mass` with respect to `fuselage_length` as set by `VerticalTailMass`, aviary/subsystems/mass/gasp_based/fixed.py:1206 -/
noncomputable def J_verticaltail_mass__fuselage_length (verticaltail_taper_ratio verticaltail_span design_gross_mass horizontaltail_mass_coefficient fuselage_length horizontaltail_span landinggear_tail_hook_mass_scaler horizontaltail_taper_ratio verticaltail_mass_coefficient wing_span min_dive_vel horizontaltail_vertical_tail_mount_location verticaltail_area verticaltail_moment_arm verticaltail_thickness_to_chord verticaltail_root_chord : ℝ) : ℝ :=
  (((temp_2 min_dive_vel verticaltail_area verticaltail_moment_arm
    verticaltail_thickness_to_chord verticaltail_root_chord) * (27 / 50)) * (((fv
    verticaltail_taper_ratio verticaltail_span design_gross_mass fuselage_length
    verticaltail_mass_coefficient wing_span) + ((horizontaltail_vertical_tail_mount_location *
    (fh design_gross_mass horizontaltail_mass_coefficient fuselage_length horizontaltail_span
    landinggear_tail_hook_mass_scaler horizontaltail_taper_ratio)) / 2)) ^ ((-(23 / 50)) : ℝ)))
    * ((dfv_dfuslen verticaltail_taper_ratio verticaltail_span design_gross_mass
    verticaltail_mass_coefficient) + ((horizontaltail_vertical_tail_mount_location *
    (dfh_dfuslen design_gross_mass horizontaltail_mass_coefficient horizontaltail_span
    landinggear_tail_hook_mass_scaler horizontaltail_taper_ratio)) / 2))

/-- Partial of `verticaltail_mass` with respect to `wing_span` as set by `VerticalTailMass`, aviary/subsystems/mass/gasp_based/fixed.py:1213 -/
noncomputable def J_verticaltail_mass__wing_span (verticaltail_taper_ratio verticaltail_span design_gross_mass horizontaltail_mass_coefficient fuselage_length horizontaltail_span landinggear_tail_hook_mass_scaler horizontaltail_taper_ratio verticaltail_mass_coefficient wing_span min_dive_vel horizontaltail_vertical_tail_mount_location verticaltail_area verticaltail_moment_arm verticaltail_thickness_to_chord verticaltail_root_chord : ℝ) : ℝ :=
  (((temp_2 min_dive_vel verticaltail_area verticaltail_moment_arm
    verticaltail_thickness_to_chord verticaltail_root_chord) * (27 / 50)) * (((fv
    verticaltail_taper_ratio verticaltail_span design_gross_mass fuselage_length
    verticaltail_mass_coefficient wing_span) + ((horizontaltail_vertical_tail_mount_location *
    (fh design_gross_mass horizontaltail_mass_coefficient fuselage_length horizontaltail_span
    landinggear_tail_hook_mass_scaler horizontaltail_taper_ratio)) / 2)) ^ ((-(23 / 50)) : ℝ)))
    * (dfv_dwingspan verticaltail_taper_ratio verticaltail_span design_gross_mass
    verticaltail_mass_coefficient)

/-- Partial of `verticaltail_mass` with respect to `verticaltail_span` as set by `VerticalTailMass`, aviary/subsystems/mass/gasp_based/fixed.py:1216 -/
noncomputable def J_verticaltail_mass__verticaltail_span (verticaltail_taper_ratio verticaltail_span design_gross_mass horizontaltail_mass_coefficient fuselage_length horizontaltail_span landinggear_tail_hook_mass_scaler horizontaltail_taper_ratio verticaltail_mass_coefficient wing_span min_dive_vel horizontaltail_vertical_tail_mount_location verticaltail_area verticaltail_moment_arm verticaltail_thickness_to_chord verticaltail_root_chord : ℝ) : ℝ :=
  (((temp_2 min_dive_vel verticaltail_area verticaltail_moment_arm
    verticaltail_thickness_to_chord verticaltail_root_chord) * (27 / 50)) * (((fv
    verticaltail_taper_ratio verticaltail_span design_gross_mass fuselage_length
    verticaltail_mass_coefficient wing_span) + ((horizontaltail_vertical_tail_mount_location *
    (fh design_gross_mass horizontaltail_mass_coefficient fuselage_length horizontaltail_span
    landinggear_tail_hook_mass_scaler horizontaltail_taper_ratio)) / 2)) ^ ((-(23 / 50)) : ℝ)))
    * (dfv_dspanvtail verticaltail_taper_ratio design_gross_mass fuselage_length
    verticaltail_mass_coefficient wing_span)

/-- Partial of `verticaltail_mass` with respect to `verticaltail_taper_ratio` as set by `VerticalTailMass`, aviary/subsystems/mass/gasp_based/fixed.py:1219 -/
noncomputable def J_verticaltail_mass__verticaltail_taper_ratio (verticaltail_taper_ratio verticaltail_span design_gross_mass horizontaltail_mass_coefficient fuselage_length horizontaltail_span landinggear_tail_hook_mass_scaler horizontaltail_taper_ratio verticaltail_mass_coefficient wing_span min_dive_vel horizontaltail_vertical_tail_mount_location verticaltail_area verticaltail_moment_arm verticaltail_thickness_to_chord verticaltail_root_chord : ℝ) : ℝ :=
  (((temp_2 min_dive_vel verticaltail_area verticaltail_moment_arm
    verticaltail_thickness_to_chord verticaltail_root_chord) * (27 / 50)) * (((fv
    verticaltail_taper_ratio verticaltail_span design_gross_mass fuselage_length
    verticaltail_mass_coefficient wing_span) + ((horizontaltail_vertical_tail_mount_location *
    (fh design_gross_mass horizontaltail_mass_coefficient fuselage_length horizontaltail_span
    landinggear_tail_hook_mass_scaler horizontaltail_taper_ratio)) / 2)) ^ ((-(23 / 50)) : ℝ)))
    * (dfv_dtaperratiovtail verticaltail_taper_ratio verticaltail_span design_gross_mass
    fuselage_length verticaltail_mass_coefficient wing_span)

/-- Partial of `verticaltail_mass` with respect to `horizontaltail_mass_coefficient` as set by `VerticalTailMass`, aviary/subsystems/mass/gasp_based/fixed.py:1226 -/
noncomputable def J_verticaltail_mass__horizontaltail_mass_coefficient (verticaltail_taper_ratio verticaltail_span design_gross_mass horizontaltail_mass_coefficient fuselage_length horizontaltail_span landinggear_tail_hook_mass_scaler horizontaltail_taper_ratio verticaltail_mass_coefficient wing_span min_dive_vel horizontaltail_vertical_tail_mount_location verticaltail_area verticaltail_moment_arm verticaltail_thickness_to_chord verticaltail_root_chord : ℝ) : ℝ :=
  (((((temp_2 min_dive_vel verticaltail_area verticaltail_moment_arm
    verticaltail_thickness_to_chord verticaltail_root_chord) * (27 / 50)) * (((fv
    verticaltail_taper_ratio verticaltail_span design_gross_mass fuselage_length
    verticaltail_mass_coefficient wing_span) + ((horizontaltail_vertical_tail_mount_location *
    (fh design_gross_mass horizontaltail_mass_coefficient fuselage_length horizontaltail_span
    landinggear_tail_hook_mass_scaler horizontaltail_taper_ratio)) / 2)) ^ ((-(23 / 50)) : ℝ)))
    * (dfh_dcoefhtail design_gross_mass fuselage_length horizontaltail_span
    landinggear_tail_hook_mass_scaler horizontaltail_taper_ratio)) *
    horizontaltail_vertical_tail_mount_location) / 2

/-- Partial of `verticaltail_mass` with respect to `horizontaltail_span` as set by `VerticalTailMass`, aviary/subsystems/mass/gasp_based/fixed.py:1235 -/
noncomputable def J_verticaltail_mass__horizontaltail_span (verticaltail_taper_ratio verticaltail_span design_gross_mass horizontaltail_mass_coefficient fuselage_length horizontaltail_span landinggear_tail_hook_mass_scaler horizontaltail_taper_ratio verticaltail_mass_coefficient wing_span min_dive_vel horizontaltail_vertical_tail_mount_location verticaltail_area verticaltail_moment_arm verticaltail_thickness_to_chord verticaltail_root_chord : ℝ) : ℝ :=
  (((((temp_2 min_dive_vel verticaltail_area verticaltail_moment_arm
    verticaltail_thickness_to_chord verticaltail_root_chord) * (27 / 50)) * (((fv
    verticaltail_taper_ratio verticaltail_span design_gross_mass fuselage_length
    verticaltail_mass_coefficient wing_span) + ((horizontaltail_vertical_tail_mount_location *
    (fh design_gross_mass horizontaltail_mass_coefficient fuselage_length horizontaltail_span
    landinggear_tail_hook_mass_scaler horizontaltail_taper_ratio)) / 2)) ^ ((-(23 / 50)) : ℝ)))
    * (dfh_dspanhtail design_gross_mass horizontaltail_mass_coefficient fuselage_length
    landinggear_tail_hook_mass_scaler horizontaltail_taper_ratio)) *
    horizontaltail_vertical_tail_mount_location) / 2

/-- Partial of `verticaltail_mass` with respect to `landinggear_tail_hook_mass_scaler` as set by `VerticalTailMass`, aviary/subsystems/mass/gasp_based/fixed.py:1244 -/
noncomputable def J_verticaltail_mass__landinggear_tail_hook_mass_scaler (verticaltail_taper_ratio verticaltail_span design_gross_mass horizontaltail_mass_coefficient fuselage_length horizontaltail_span landinggear_tail_hook_mass_scaler horizontaltail_taper_ratio verticaltail_mass_coefficient wing_span min_dive_vel horizontaltail_vertical_tail_mount_location verticaltail_area verticaltail_moment_arm verticaltail_thickness_to_chord verticaltail_root_chord : ℝ) : ℝ :=
  (((((temp_2 min_dive_vel verticaltail_area verticaltail_moment_arm
    verticaltail_thickness_to_chord verticaltail_root_chord) * (27 / 50)) * (((fv
    verticaltail_taper_ratio verticaltail_span design_gross_mass fuselage_length
    verticaltail_mass_coefficient wing_span) + ((horizontaltail_vertical_tail_mount_location *
    (fh design_gross_mass horizontaltail_mass_coefficient fuselage_length horizontaltail_span
    landinggear_tail_hook_mass_scaler horizontaltail_taper_ratio)) / 2)) ^ ((-(23 / 50)) : ℝ)))
    * (dfh_dhookfac design_gross_mass horizontaltail_mass_coefficient fuselage_length
    horizontaltail_span horizontaltail_taper_ratio)) *
    horizontaltail_vertical_tail_mount_location) / 2

/-- Partial of `verticaltail_mass` with respect to `horizontaltail_taper_ratio` as set by `VerticalTailMass`, aviary/subsystems/mass/gasp_based/fixed.py:1253 -/
noncomputable def J_verticaltail_mass__horizontaltail_taper_ratio (verticaltail_taper_ratio verticaltail_span design_gross_mass horizontaltail_mass_coefficient fuselage_length horizontaltail_span landinggear_tail_hook_mass_scaler horizontaltail_taper_ratio verticaltail_mass_coefficient wing_span min_dive_vel horizontaltail_vertical_tail_mount_location verticaltail_area verticaltail_moment_arm verticaltail_thickness_to_chord verticaltail_root_chord : ℝ) : ℝ :=
  (((((temp_2 min_dive_vel verticaltail_area verticaltail_moment_arm
    verticaltail_thickness_to_chord verticaltail_root_chord) * (27 / 50)) * (((fv
    verticaltail_taper_ratio verticaltail_span design_gross_mass fuselage_length
    verticaltail_mass_coefficient wing_span) + ((horizontaltail_vertical_tail_mount_location *
    (fh design_gross_mass horizontaltail_mass_coefficient fuselage_length horizontaltail_span
    landinggear_tail_hook_mass_scaler horizontaltail_taper_ratio)) / 2)) ^ ((-(23 / 50)) : ℝ)))
    * (dfh_dtaperratiohtail design_gross_mass horizontaltail_mass_coefficient fuselage_length
    horizontaltail_span landinggear_tail_hook_mass_scaler horizontaltail_taper_ratio)) *
    horizontaltail_vertical_tail_mount_location) / 2

/-- Partial of `verticaltail_mass` with respect to `horizontaltail_vertical_tail_mount_location` as set by `VerticalTailMass`, aviary/subsystems/mass/gasp_based/fixed.py:1262 -/
noncomputable def J_verticaltail_mass__horizontaltail_vertical_tail_mount_location (verticaltail_taper_ratio verticaltail_span design_gross_mass horizontaltail_mass_coefficient fuselage_length horizontaltail_span landinggear_tail_hook_mass_scaler horizontaltail_taper_ratio verticaltail_mass_coefficient wing_span min_dive_vel horizontaltail_vertical_tail_mount_location verticaltail_area verticaltail_moment_arm verticaltail_thickness_to_chord verticaltail_root_chord : ℝ) : ℝ :=
  ((((380 * (((verticaltail_area * ((log min_dive_vel) / (log 10))) / (((100 *
    verticaltail_moment_arm) * verticaltail_thickness_to_chord) * verticaltail_root_chord)) ^
    ((27 / 50) : ℝ))) * (27 / 50)) * (((fv verticaltail_taper_ratio verticaltail_span
    design_gross_mass fuselage_length verticaltail_mass_coefficient wing_span) +
    ((horizontaltail_vertical_tail_mount_location * (fh design_gross_mass
    horizontaltail_mass_coefficient fuselage_length horizontaltail_span
    landinggear_tail_hook_mass_scaler horizontaltail_taper_ratio)) / 2)) ^ ((-(23 / 50)) : ℝ)))
    * (fh design_gross_mass horizontaltail_mass_coefficient fuselage_length horizontaltail_span
    landinggear_tail_hook_mass_scaler horizontaltail_taper_ratio)) / 2

/-- Partial of `verticaltail_mass` with respect to `verticaltail_area` as set by `VerticalTailMass`, aviary/subsystems/mass/gasp_based/fixed.py:1276 -/
noncomputable def J_verticaltail_mass__verticaltail_area (verticaltail_taper_ratio verticaltail_span design_gross_mass horizontaltail_mass_coefficient fuselage_length horizontaltail_span landinggear_tail_hook_mass_scaler horizontaltail_taper_ratio verticaltail_mass_coefficient wing_span min_dive_vel horizontaltail_vertical_tail_mount_location verticaltail_area verticaltail_moment_arm verticaltail_thickness_to_chord verticaltail_root_chord : ℝ) : ℝ :=
  ((380 * (((((fv verticaltail_taper_ratio verticaltail_span design_gross_mass fuselage_length
    verticaltail_mass_coefficient wing_span) + ((horizontaltail_vertical_tail_mount_location *
    (fh design_gross_mass horizontaltail_mass_coefficient fuselage_length horizontaltail_span
    landinggear_tail_hook_mass_scaler horizontaltail_taper_ratio)) / 2)) * ((log min_dive_vel) /
    (log 10))) / (((100 * verticaltail_moment_arm) * verticaltail_thickness_to_chord) *
    verticaltail_root_chord)) ^ ((27 / 50) : ℝ))) * (27 / 50)) * (verticaltail_area ^ ((-(23 /
    50)) : ℝ))

/-- Partial of `verticaltail_mass` with respect to `min_dive_vel` as set by `VerticalTailMass`, aviary/subsystems/mass/gasp_based/fixed.py:1288 -/
noncomputable def J_verticaltail_mass__min_dive_vel (verticaltail_taper_ratio verticaltail_span design_gross_mass horizontaltail_mass_coefficient fuselage_length horizontaltail_span landinggear_tail_hook_mass_scaler horizontaltail_taper_ratio verticaltail_mass_coefficient wing_span min_dive_vel horizontaltail_vertical_tail_mount_location verticaltail_area verticaltail_moment_arm verticaltail_thickness_to_chord verticaltail_root_chord : ℝ) : ℝ :=
  (((380 * (((((fv verticaltail_taper_ratio verticaltail_span design_gross_mass fuselage_length
    verticaltail_mass_coefficient wing_span) + ((horizontaltail_vertical_tail_mount_location *
    (fh design_gross_mass horizontaltail_mass_coefficient fuselage_length horizontaltail_span
    landinggear_tail_hook_mass_scaler horizontaltail_taper_ratio)) / 2)) * verticaltail_area) /
    (((100 * verticaltail_moment_arm) * verticaltail_thickness_to_chord) *
    verticaltail_root_chord)) ^ ((27 / 50) : ℝ))) * (27 / 50)) * (((log min_dive_vel) / (log
    10)) ^ ((-(23 / 50)) : ℝ))) / (min_dive_vel * (log 10))

/-- Partial of `verticaltail_mass` with respect to `verticaltail_moment_arm` as set by `VerticalTailMass`, aviary/subsystems/mass/gasp_based/fixed.py:1301 -/
noncomputable def J_verticaltail_mass__verticaltail_moment_arm (verticaltail_taper_ratio verticaltail_span design_gross_mass horizontaltail_mass_coefficient fuselage_length horizontaltail_span landinggear_tail_hook_mass_scaler horizontaltail_taper_ratio verticaltail_mass_coefficient wing_span min_dive_vel horizontaltail_vertical_tail_mount_location verticaltail_area verticaltail_moment_arm verticaltail_thickness_to_chord verticaltail_root_chord : ℝ) : ℝ :=
  ((380 * ((((((fv verticaltail_taper_ratio verticaltail_span design_gross_mass fuselage_length
    verticaltail_mass_coefficient wing_span) + ((horizontaltail_vertical_tail_mount_location *
    (fh design_gross_mass horizontaltail_mass_coefficient fuselage_length horizontaltail_span
    landinggear_tail_hook_mass_scaler horizontaltail_taper_ratio)) / 2)) * verticaltail_area) *
    ((log min_dive_vel) / (log 10))) / ((100 * verticaltail_thickness_to_chord) *
    verticaltail_root_chord)) ^ ((27 / 50) : ℝ))) * (-(27 / 50))) * (verticaltail_moment_arm ^
    ((-(77 / 50)) : ℝ))

/-- Partial of `verticaltail_mass` with respect to `verticaltail_thickness_to_chord` as set by `VerticalTailMass`, aviary/subsystems/mass/gasp_based/fixed.py:1314 -/
noncomputable def J_verticaltail_mass__verticaltail_thickness_to_chord (verticaltail_taper_ratio verticaltail_span design_gross_mass horizontaltail_mass_coefficient fuselage_length horizontaltail_span landinggear_tail_hook_mass_scaler horizontaltail_taper_ratio verticaltail_mass_coefficient wing_span min_dive_vel horizontaltail_vertical_tail_mount_location verticaltail_area verticaltail_moment_arm verticaltail_thickness_to_chord verticaltail_root_chord : ℝ) : ℝ :=
  ((380 * ((((((fv verticaltail_taper_ratio verticaltail_span design_gross_mass fuselage_length
    verticaltail_mass_coefficient wing_span) + ((horizontaltail_vertical_tail_mount_location *
    (fh design_gross_mass horizontaltail_mass_coefficient fuselage_length horizontaltail_span
    landinggear_tail_hook_mass_scaler horizontaltail_taper_ratio)) / 2)) * verticaltail_area) *
    ((log min_dive_vel) / (log 10))) / ((100 * verticaltail_moment_arm) *
    verticaltail_root_chord)) ^ ((27 / 50) : ℝ))) * (-(27 / 50))) *
    (verticaltail_thickness_to_chord ^ ((-(77 / 50)) : ℝ))

/-- Partial of `verticaltail_mass` with respect to `verticaltail_root_chord` as set by `VerticalTailMass`, aviary/subsystems/mass/gasp_based/fixed.py:1327 -/
noncomputable def J_verticaltail_mass__verticaltail_root_chord (verticaltail_taper_ratio verticaltail_span design_gross_mass horizontaltail_mass_coefficient fuselage_length horizontaltail_span landinggear_tail_hook_mass_scaler horizontaltail_taper_ratio verticaltail_mass_coefficient wing_span min_dive_vel horizontaltail_vertical_tail_mount_location verticaltail_area verticaltail_moment_arm verticaltail_thickness_to_chord verticaltail_root_chord : ℝ) : ℝ :=
  ((380 * ((((((fv verticaltail_taper_ratio verticaltail_span design_gross_mass fuselage_length
    verticaltail_mass_coefficient wing_span) + ((horizontaltail_vertical_tail_mount_location *
    (fh design_gross_mass horizontaltail_mass_coefficient fuselage_length horizontaltail_span
    landinggear_tail_hook_mass_scaler horizontaltail_taper_ratio)) / 2)) * verticaltail_area) *
    ((log min_dive_vel) / (log 10))) / ((100 * verticaltail_moment_arm) *
    verticaltail_thickness_to_chord)) ^ ((27 / 50) : ℝ))) * (-(27 / 50))) *
    (verticaltail_root_chord ^ ((-(77 / 50)) : ℝ))

/-- Partial of `verticaltail_mass` with respect to `verticaltail_mass_scaler` as set by `VerticalTailMass`, aviary/subsystems/mass/gasp_based/fixed.py:1340 -/
noncomputable def J_verticaltail_mass__verticaltail_mass_scaler (verticaltail_taper_ratio verticaltail_span design_gross_mass horizontaltail_mass_coefficient fuselage_length horizontaltail_span landinggear_tail_hook_mass_scaler horizontaltail_taper_ratio verticaltail_mass_coefficient wing_span min_dive_vel horizontaltail_vertical_tail_mount_location verticaltail_area verticaltail_moment_arm verticaltail_thickness_to_chord verticaltail_root_chord : ℝ) : ℝ :=
  380 * ((((((fv verticaltail_taper_ratio verticaltail_span design_gross_mass fuselage_length
    verticaltail_mass_coefficient wing_span) + ((horizontaltail_vertical_tail_mount_location *
    (fh design_gross_mass horizontaltail_mass_coefficient fuselage_length horizontaltail_span
    landinggear_tail_hook_mass_scaler horizontaltail_taper_ratio)) / 2)) * verticaltail_area) *
    ((log min_dive_vel) / (log 10))) / (((100 * verticaltail_moment_arm) *
    verticaltail_thickness_to_chord) * verticaltail_root_chord)) ^ ((27 / 50) : ℝ))

theorem d_loc_mac_vtail__verticaltail_taper_ratio (verticaltail_taper_ratio
    verticaltail_aspect_ratio verticaltail_sweep verticaltail_span : ℝ) (h0 : 0 <
    verticaltail_taper_ratio) (h1 : 0 < verticaltail_aspect_ratio) (h2 : cos verticaltail_sweep ≠
    0) :
    HasDerivAt (fun t => out_loc_mac_vtail t verticaltail_aspect_ratio verticaltail_sweep verticaltail_span) (J_loc_mac_vtail__verticaltail_taper_ratio verticaltail_taper_ratio verticaltail_aspect_ratio verticaltail_sweep verticaltail_span) verticaltail_taper_ratio := by
  simp only [out_loc_mac_vtail, J_loc_mac_vtail__verticaltail_taper_ratio, temp, dtansweepvtaille_dtaperratiovtail, tan_sweep_vtail_le]
  (apply hasDerivAt_of_eq; on_goal 1 => (repeat' comp_step))
  all_goals try comp_side
  all_goals try simp only [mul_zero, zero_mul, add_zero, zero_add, sub_zero, zero_sub, mul_one, one_mul]
  all_goals try push_cast
  all_goals comp_eq

theorem d_loc_mac_vtail__verticaltail_aspect_ratio (verticaltail_taper_ratio
    verticaltail_aspect_ratio verticaltail_sweep verticaltail_span : ℝ) (h0 : 0 <
    verticaltail_taper_ratio) (h1 : 0 < verticaltail_aspect_ratio) (h2 : cos verticaltail_sweep ≠
    0) :
    HasDerivAt (fun t => out_loc_mac_vtail verticaltail_taper_ratio t verticaltail_sweep verticaltail_span) (J_loc_mac_vtail__verticaltail_aspect_ratio verticaltail_taper_ratio verticaltail_aspect_ratio verticaltail_span) verticaltail_aspect_ratio := by
  simp only [out_loc_mac_vtail, J_loc_mac_vtail__verticaltail_aspect_ratio, dtansweepvtaille_darvtail, tan_sweep_vtail_le]
  (apply hasDerivAt_of_eq; on_goal 1 => (repeat' comp_step))
  all_goals try comp_side
  all_goals try simp only [mul_zero, zero_mul, add_zero, zero_add, sub_zero, zero_sub, mul_one, one_mul]
  all_goals try push_cast
  all_goals comp_eq

theorem d_loc_mac_vtail__verticaltail_sweep (verticaltail_taper_ratio verticaltail_aspect_ratio
    verticaltail_sweep verticaltail_span : ℝ) (h0 : 0 < verticaltail_taper_ratio) (h1 : 0 <
    verticaltail_aspect_ratio) (h2 : cos verticaltail_sweep ≠ 0) :
    HasDerivAt (fun t => out_loc_mac_vtail verticaltail_taper_ratio verticaltail_aspect_ratio t verticaltail_span) (J_loc_mac_vtail__verticaltail_sweep verticaltail_taper_ratio verticaltail_sweep verticaltail_span) verticaltail_sweep := by
  simp only [out_loc_mac_vtail, J_loc_mac_vtail__verticaltail_sweep, dtansweepvtaille_dquartersweeptail, tan_sweep_vtail_le]
  (apply hasDerivAt_of_eq; on_goal 1 => (repeat' comp_step))
  all_goals try comp_side
  all_goals try simp only [mul_zero, zero_mul, add_zero, zero_add, sub_zero, zero_sub, mul_one, one_mul]
  all_goals try push_cast
  all_goals comp_eq

theorem d_loc_mac_vtail__verticaltail_span (verticaltail_taper_ratio verticaltail_aspect_ratio
    verticaltail_sweep verticaltail_span : ℝ) (h0 : 0 < verticaltail_taper_ratio) (h1 : 0 <
    verticaltail_aspect_ratio) (h2 : cos verticaltail_sweep ≠ 0) :
    HasDerivAt (fun t => out_loc_mac_vtail verticaltail_taper_ratio verticaltail_aspect_ratio verticaltail_sweep t) (J_loc_mac_vtail__verticaltail_span verticaltail_taper_ratio verticaltail_aspect_ratio verticaltail_sweep) verticaltail_span := by
  simp only [out_loc_mac_vtail, J_loc_mac_vtail__verticaltail_span, tan_sweep_vtail_le]
  (apply hasDerivAt_of_eq; on_goal 1 => (repeat' comp_step))
  all_goals try comp_side
  all_goals try simp only [mul_zero, zero_mul, add_zero, zero_add, sub_zero, zero_sub, mul_one, one_mul]
  all_goals try push_cast
  all_goals comp_eq

theorem d_verticaltail_mass__verticaltail_mass_scaler (verticaltail_taper_ratio verticaltail_span
    design_gross_mass horizontaltail_mass_coefficient fuselage_length horizontaltail_span
    landinggear_tail_hook_mass_scaler horizontaltail_taper_ratio verticaltail_mass_coefficient
    wing_span min_dive_vel horizontaltail_vertical_tail_mount_location verticaltail_area
    verticaltail_moment_arm verticaltail_thickness_to_chord verticaltail_root_chord
    verticaltail_mass_scaler : ℝ) (h0 : 0 < verticaltail_taper_ratio) (h1 : 0 <
    horizontaltail_taper_ratio) (h2 : 0 < min_dive_vel) (h3 : log 10 ≠ 0) (h4 : 0 <
    verticaltail_moment_arm) (h5 : 0 < verticaltail_thickness_to_chord) (h6 : 0 <
    verticaltail_root_chord) (h7 : 0 < design_gross_mass) (h8 : 0 < verticaltail_mass_coefficient)
    (h9 : 0 < fuselage_length) (h10 : 0 < wing_span) (h11 : 0 < verticaltail_span) (h12 : 0 <
    horizontaltail_vertical_tail_mount_location) (h13 : 0 < horizontaltail_mass_coefficient) (h14
    : 0 < horizontaltail_span) (h15 : 0 < landinggear_tail_hook_mass_scaler) (h16 : 0 <
    verticaltail_area) (h17 : 0 < log min_dive_vel) (h18 : 0 < log 10) :
    HasDerivAt (fun t => out_verticaltail_mass verticaltail_taper_ratio verticaltail_span design_gross_mass horizontaltail_mass_coefficient fuselage_length horizontaltail_span landinggear_tail_hook_mass_scaler horizontaltail_taper_ratio verticaltail_mass_coefficient wing_span min_dive_vel horizontaltail_vertical_tail_mount_location verticaltail_area verticaltail_moment_arm verticaltail_thickness_to_chord verticaltail_root_chord t) (J_verticaltail_mass__verticaltail_mass_scaler verticaltail_taper_ratio verticaltail_span design_gross_mass horizontaltail_mass_coefficient fuselage_length horizontaltail_span landinggear_tail_hook_mass_scaler horizontaltail_taper_ratio verticaltail_mass_coefficient wing_span min_dive_vel horizontaltail_vertical_tail_mount_location verticaltail_area verticaltail_moment_arm verticaltail_thickness_to_chord verticaltail_root_chord) verticaltail_mass_scaler := by
  simp only [out_verticaltail_mass, J_verticaltail_mass__verticaltail_mass_scaler, fh, fv]
  (apply hasDerivAt_of_eq; on_goal 1 => (repeat' comp_step))
  all_goals try comp_side
  all_goals try simp only [mul_zero, zero_mul, add_zero, zero_add, sub_zero, zero_sub, mul_one, one_mul]
  all_goals try push_cast
  all_goals comp_eq

/-- Partial derivatives of `VerticalTailMass` that are proved correct (the rest is listed in the header). -/
theorem partials_partial (verticaltail_taper_ratio verticaltail_aspect_ratio verticaltail_sweep
    verticaltail_span design_gross_mass horizontaltail_mass_coefficient fuselage_length
    horizontaltail_span landinggear_tail_hook_mass_scaler horizontaltail_taper_ratio
    verticaltail_mass_coefficient wing_span min_dive_vel
    horizontaltail_vertical_tail_mount_location verticaltail_area verticaltail_moment_arm
    verticaltail_thickness_to_chord verticaltail_root_chord verticaltail_mass_scaler : ℝ) (h0 : 0
    < verticaltail_taper_ratio) (h1 : 0 < verticaltail_aspect_ratio) (h2 : cos verticaltail_sweep
    ≠ 0) (h3 : 0 < horizontaltail_taper_ratio) (h4 : 0 < min_dive_vel) (h5 : log 10 ≠ 0) (h6 : 0 <
    verticaltail_moment_arm) (h7 : 0 < verticaltail_thickness_to_chord) (h8 : 0 <
    verticaltail_root_chord) (h9 : 0 < design_gross_mass) (h10 : 0 <
    verticaltail_mass_coefficient) (h11 : 0 < fuselage_length) (h12 : 0 < wing_span) (h13 : 0 <
    verticaltail_span) (h14 : 0 < horizontaltail_vertical_tail_mount_location) (h15 : 0 <
    horizontaltail_mass_coefficient) (h16 : 0 < horizontaltail_span) (h17 : 0 <
    landinggear_tail_hook_mass_scaler) (h18 : 0 < verticaltail_area) (h19 : 0 < log min_dive_vel)
    (h20 : 0 < log 10) :
    HasDerivAt (fun t => out_loc_mac_vtail t verticaltail_aspect_ratio verticaltail_sweep
      verticaltail_span) (J_loc_mac_vtail__verticaltail_taper_ratio verticaltail_taper_ratio
      verticaltail_aspect_ratio verticaltail_sweep verticaltail_span) verticaltail_taper_ratio ∧
    HasDerivAt (fun t => out_loc_mac_vtail verticaltail_taper_ratio t verticaltail_sweep
      verticaltail_span) (J_loc_mac_vtail__verticaltail_aspect_ratio verticaltail_taper_ratio
      verticaltail_aspect_ratio verticaltail_span) verticaltail_aspect_ratio ∧
    HasDerivAt (fun t => out_loc_mac_vtail verticaltail_taper_ratio verticaltail_aspect_ratio t
      verticaltail_span) (J_loc_mac_vtail__verticaltail_sweep verticaltail_taper_ratio
      verticaltail_sweep verticaltail_span) verticaltail_sweep ∧
    HasDerivAt (fun t => out_loc_mac_vtail verticaltail_taper_ratio verticaltail_aspect_ratio
      verticaltail_sweep t) (J_loc_mac_vtail__verticaltail_span verticaltail_taper_ratio
      verticaltail_aspect_ratio verticaltail_sweep) verticaltail_span ∧
    HasDerivAt (fun t => out_verticaltail_mass verticaltail_taper_ratio verticaltail_span
      design_gross_mass horizontaltail_mass_coefficient fuselage_length horizontaltail_span
      landinggear_tail_hook_mass_scaler horizontaltail_taper_ratio verticaltail_mass_coefficient
      wing_span min_dive_vel horizontaltail_vertical_tail_mount_location verticaltail_area
      verticaltail_moment_arm verticaltail_thickness_to_chord verticaltail_root_chord t)
      (J_verticaltail_mass__verticaltail_mass_scaler verticaltail_taper_ratio verticaltail_span
      design_gross_mass horizontaltail_mass_coefficient fuselage_length horizontaltail_span
      landinggear_tail_hook_mass_scaler horizontaltail_taper_ratio verticaltail_mass_coefficient
      wing_span min_dive_vel horizontaltail_vertical_tail_mount_location verticaltail_area
      verticaltail_moment_arm verticaltail_thickness_to_chord verticaltail_root_chord)
      verticaltail_mass_scaler :=
  ⟨d_loc_mac_vtail__verticaltail_taper_ratio _ _ _ _ h0 h1 h2,
    d_loc_mac_vtail__verticaltail_aspect_ratio _ _ _ _ h0 h1 h2,
    d_loc_mac_vtail__verticaltail_sweep _ _ _ _ h0 h1 h2, d_loc_mac_vtail__verticaltail_span _ _ _
    _ h0 h1 h2, d_verticaltail_mass__verticaltail_mass_scaler _ _ _ _ _ _ _ _ _ _ _ _ _ _ _ _ _ h0
    h3 h4 h5 h6 h7 h8 h9 h10 h11 h12 h13 h14 h15 h16 h17 h18 h19 h20⟩

example : ∃ verticaltail_taper_ratio verticaltail_aspect_ratio verticaltail_sweep
      verticaltail_span design_gross_mass horizontaltail_mass_coefficient fuselage_length
      horizontaltail_span landinggear_tail_hook_mass_scaler horizontaltail_taper_ratio
      verticaltail_mass_coefficient wing_span min_dive_vel
      horizontaltail_vertical_tail_mount_location verticaltail_area verticaltail_moment_arm
      verticaltail_thickness_to_chord verticaltail_root_chord verticaltail_mass_scaler : ℝ,
      0 < verticaltail_taper_ratio ∧
      0 < verticaltail_aspect_ratio ∧
      cos verticaltail_sweep ≠ 0 ∧
      0 < horizontaltail_taper_ratio ∧
      0 < min_dive_vel ∧
      log 10 ≠ 0 ∧
      0 < verticaltail_moment_arm ∧
      0 < verticaltail_thickness_to_chord ∧
      0 < verticaltail_root_chord ∧
      0 < design_gross_mass ∧
      0 < verticaltail_mass_coefficient ∧
      0 < fuselage_length ∧
      0 < wing_span ∧
      0 < verticaltail_span ∧
      0 < horizontaltail_vertical_tail_mount_location ∧
      0 < horizontaltail_mass_coefficient ∧
      0 < horizontaltail_span ∧
      0 < landinggear_tail_hook_mass_scaler ∧
      0 < verticaltail_area ∧
      0 < log min_dive_vel ∧
      0 < log 10 :=
  ⟨2, 1, 0, 1, 1, 1, 1, 2, 2, 2, 2, 1, 2, 1, 2, 1, 2, 2, 1, by comp_example, by comp_example, by
    comp_example, by comp_example, by comp_example, by comp_example, by comp_example, by
    comp_example, by comp_example, by comp_example, by comp_example, by comp_example, by
    comp_example, by comp_example, by comp_example, by comp_example, by comp_example, by
    comp_example, by comp_example, by comp_example, by comp_example⟩

/-- The entry for `verticaltail_mass` by `design_gross_mass` leaves out the factor `verticaltail_mass_scaler`: where it is not zero it cannot be the
derivative both for `verticaltail_mass_scaler = 1` and for `verticaltail_mass_scaler = 2`. -/
theorem J_verticaltail_mass__design_gross_mass_violated (verticaltail_taper_ratio
    verticaltail_span design_gross_mass horizontaltail_mass_coefficient fuselage_length
    horizontaltail_span landinggear_tail_hook_mass_scaler horizontaltail_taper_ratio
    verticaltail_mass_coefficient wing_span min_dive_vel
    horizontaltail_vertical_tail_mount_location verticaltail_area verticaltail_moment_arm
    verticaltail_thickness_to_chord verticaltail_root_chord : ℝ) (hJ :
    J_verticaltail_mass__design_gross_mass verticaltail_taper_ratio verticaltail_span
    design_gross_mass horizontaltail_mass_coefficient fuselage_length horizontaltail_span
    landinggear_tail_hook_mass_scaler horizontaltail_taper_ratio verticaltail_mass_coefficient
    wing_span min_dive_vel horizontaltail_vertical_tail_mount_location verticaltail_area
    verticaltail_moment_arm verticaltail_thickness_to_chord verticaltail_root_chord ≠ 0) :
    ¬ (HasDerivAt (fun t => out_verticaltail_mass verticaltail_taper_ratio verticaltail_span t
      horizontaltail_mass_coefficient fuselage_length horizontaltail_span
      landinggear_tail_hook_mass_scaler horizontaltail_taper_ratio verticaltail_mass_coefficient
      wing_span min_dive_vel horizontaltail_vertical_tail_mount_location verticaltail_area
      verticaltail_moment_arm verticaltail_thickness_to_chord verticaltail_root_chord 1)
      (J_verticaltail_mass__design_gross_mass verticaltail_taper_ratio verticaltail_span
      design_gross_mass horizontaltail_mass_coefficient fuselage_length horizontaltail_span
      landinggear_tail_hook_mass_scaler horizontaltail_taper_ratio verticaltail_mass_coefficient
      wing_span min_dive_vel horizontaltail_vertical_tail_mount_location verticaltail_area
      verticaltail_moment_arm verticaltail_thickness_to_chord verticaltail_root_chord)
      design_gross_mass ∧ HasDerivAt (fun t => out_verticaltail_mass verticaltail_taper_ratio
      verticaltail_span t horizontaltail_mass_coefficient fuselage_length horizontaltail_span
      landinggear_tail_hook_mass_scaler horizontaltail_taper_ratio verticaltail_mass_coefficient
      wing_span min_dive_vel horizontaltail_vertical_tail_mount_location verticaltail_area
      verticaltail_moment_arm verticaltail_thickness_to_chord verticaltail_root_chord 2)
      (J_verticaltail_mass__design_gross_mass verticaltail_taper_ratio verticaltail_span
      design_gross_mass horizontaltail_mass_coefficient fuselage_length horizontaltail_span
      landinggear_tail_hook_mass_scaler horizontaltail_taper_ratio verticaltail_mass_coefficient
      wing_span min_dive_vel horizontaltail_vertical_tail_mount_location verticaltail_area
      verticaltail_moment_arm verticaltail_thickness_to_chord verticaltail_root_chord)
      design_gross_mass) := by
  rintro ⟨h1, h2⟩
  have e : (fun t => out_verticaltail_mass verticaltail_taper_ratio verticaltail_span t
      horizontaltail_mass_coefficient fuselage_length horizontaltail_span
      landinggear_tail_hook_mass_scaler horizontaltail_taper_ratio verticaltail_mass_coefficient
      wing_span min_dive_vel horizontaltail_vertical_tail_mount_location verticaltail_area
      verticaltail_moment_arm verticaltail_thickness_to_chord verticaltail_root_chord 2) = fun t
      => 2 * out_verticaltail_mass verticaltail_taper_ratio verticaltail_span t
      horizontaltail_mass_coefficient fuselage_length horizontaltail_span
      landinggear_tail_hook_mass_scaler horizontaltail_taper_ratio verticaltail_mass_coefficient
      wing_span min_dive_vel horizontaltail_vertical_tail_mount_location verticaltail_area
      verticaltail_moment_arm verticaltail_thickness_to_chord verticaltail_root_chord 1 := by
    funext t; simp only [out_verticaltail_mass, fh, fv]; ring
  rw [e] at h2
  have := h2.unique (h1.const_mul 2)
  exact hJ (by linarith)

example : J_verticaltail_mass__design_gross_mass (2) (1) (2) (1) (1) (1) (2) (2) (1) (2) (2) (1)
    (2) (2) (2) (1) ≠ 0 := by
  simp only [J_verticaltail_mass__design_gross_mass, dfh_dgrosswtinitial, dfv_dgrosswtinitial, fh,
      fv, temp_2]
  first | positivity | (norm_num; done) | (norm_num; positivity)

/-- The entry for `verticaltail_mass` by `fuselage_length` leaves out the factor `verticaltail_mass_scaler`: where it is not zero it cannot be the
derivative both for `verticaltail_mass_scaler = 1` and for `verticaltail_mass_scaler = 2`. -/
theorem J_verticaltail_mass__fuselage_length_violated (verticaltail_taper_ratio verticaltail_span
    design_gross_mass horizontaltail_mass_coefficient fuselage_length horizontaltail_span
    landinggear_tail_hook_mass_scaler horizontaltail_taper_ratio verticaltail_mass_coefficient
    wing_span min_dive_vel horizontaltail_vertical_tail_mount_location verticaltail_area
    verticaltail_moment_arm verticaltail_thickness_to_chord verticaltail_root_chord : ℝ) (hJ :
    J_verticaltail_mass__fuselage_length verticaltail_taper_ratio verticaltail_span
    design_gross_mass horizontaltail_mass_coefficient fuselage_length horizontaltail_span
    landinggear_tail_hook_mass_scaler horizontaltail_taper_ratio verticaltail_mass_coefficient
    wing_span min_dive_vel horizontaltail_vertical_tail_mount_location verticaltail_area
    verticaltail_moment_arm verticaltail_thickness_to_chord verticaltail_root_chord ≠ 0) :
    ¬ (HasDerivAt (fun t => out_verticaltail_mass verticaltail_taper_ratio verticaltail_span
      design_gross_mass horizontaltail_mass_coefficient t horizontaltail_span
      landinggear_tail_hook_mass_scaler horizontaltail_taper_ratio verticaltail_mass_coefficient
      wing_span min_dive_vel horizontaltail_vertical_tail_mount_location verticaltail_area
      verticaltail_moment_arm verticaltail_thickness_to_chord verticaltail_root_chord 1)
      (J_verticaltail_mass__fuselage_length verticaltail_taper_ratio verticaltail_span
      design_gross_mass horizontaltail_mass_coefficient fuselage_length horizontaltail_span
      landinggear_tail_hook_mass_scaler horizontaltail_taper_ratio verticaltail_mass_coefficient
      wing_span min_dive_vel horizontaltail_vertical_tail_mount_location verticaltail_area
      verticaltail_moment_arm verticaltail_thickness_to_chord verticaltail_root_chord)
      fuselage_length ∧ HasDerivAt (fun t => out_verticaltail_mass verticaltail_taper_ratio
      verticaltail_span design_gross_mass horizontaltail_mass_coefficient t horizontaltail_span
      landinggear_tail_hook_mass_scaler horizontaltail_taper_ratio verticaltail_mass_coefficient
      wing_span min_dive_vel horizontaltail_vertical_tail_mount_location verticaltail_area
      verticaltail_moment_arm verticaltail_thickness_to_chord verticaltail_root_chord 2)
      (J_verticaltail_mass__fuselage_length verticaltail_taper_ratio verticaltail_span
      design_gross_mass horizontaltail_mass_coefficient fuselage_length horizontaltail_span
      landinggear_tail_hook_mass_scaler horizontaltail_taper_ratio verticaltail_mass_coefficient
      wing_span min_dive_vel horizontaltail_vertical_tail_mount_location verticaltail_area
      verticaltail_moment_arm verticaltail_thickness_to_chord verticaltail_root_chord)
      fuselage_length) := by
  rintro ⟨h1, h2⟩
  have e : (fun t => out_verticaltail_mass verticaltail_taper_ratio verticaltail_span
      design_gross_mass horizontaltail_mass_coefficient t horizontaltail_span
      landinggear_tail_hook_mass_scaler horizontaltail_taper_ratio verticaltail_mass_coefficient
      wing_span min_dive_vel horizontaltail_vertical_tail_mount_location verticaltail_area
      verticaltail_moment_arm verticaltail_thickness_to_chord verticaltail_root_chord 2) = fun t
      => 2 * out_verticaltail_mass verticaltail_taper_ratio verticaltail_span design_gross_mass
      horizontaltail_mass_coefficient t horizontaltail_span landinggear_tail_hook_mass_scaler
      horizontaltail_taper_ratio verticaltail_mass_coefficient wing_span min_dive_vel
      horizontaltail_vertical_tail_mount_location verticaltail_area verticaltail_moment_arm
      verticaltail_thickness_to_chord verticaltail_root_chord 1 := by
    funext t; simp only [out_verticaltail_mass, fh, fv]; ring
  rw [e] at h2
  have := h2.unique (h1.const_mul 2)
  exact hJ (by linarith)

example : J_verticaltail_mass__fuselage_length (2) (1) (2) (1) (1) (1) (2) (2) (1) (2) (2) (1) (2)
    (2) (2) (1) ≠ 0 := by
  simp only [J_verticaltail_mass__fuselage_length, dfh_dfuslen, dfv_dfuslen, fh, fv, temp_2]
  first | positivity | (norm_num; done) | (norm_num; positivity)

/-- The entry for `verticaltail_mass` by `horizontaltail_mass_coefficient` leaves out the factor `verticaltail_mass_scaler`: where it is not zero it cannot be the
derivative both for `verticaltail_mass_scaler = 1` and for `verticaltail_mass_scaler = 2`. -/
theorem J_verticaltail_mass__horizontaltail_mass_coefficient_violated (verticaltail_taper_ratio
    verticaltail_span design_gross_mass horizontaltail_mass_coefficient fuselage_length
    horizontaltail_span landinggear_tail_hook_mass_scaler horizontaltail_taper_ratio
    verticaltail_mass_coefficient wing_span min_dive_vel
    horizontaltail_vertical_tail_mount_location verticaltail_area verticaltail_moment_arm
    verticaltail_thickness_to_chord verticaltail_root_chord : ℝ) (hJ :
    J_verticaltail_mass__horizontaltail_mass_coefficient verticaltail_taper_ratio
    verticaltail_span design_gross_mass horizontaltail_mass_coefficient fuselage_length
    horizontaltail_span landinggear_tail_hook_mass_scaler horizontaltail_taper_ratio
    verticaltail_mass_coefficient wing_span min_dive_vel
    horizontaltail_vertical_tail_mount_location verticaltail_area verticaltail_moment_arm
    verticaltail_thickness_to_chord verticaltail_root_chord ≠ 0) :
    ¬ (HasDerivAt (fun t => out_verticaltail_mass verticaltail_taper_ratio verticaltail_span
      design_gross_mass t fuselage_length horizontaltail_span landinggear_tail_hook_mass_scaler
      horizontaltail_taper_ratio verticaltail_mass_coefficient wing_span min_dive_vel
      horizontaltail_vertical_tail_mount_location verticaltail_area verticaltail_moment_arm
      verticaltail_thickness_to_chord verticaltail_root_chord 1)
      (J_verticaltail_mass__horizontaltail_mass_coefficient verticaltail_taper_ratio
      verticaltail_span design_gross_mass horizontaltail_mass_coefficient fuselage_length
      horizontaltail_span landinggear_tail_hook_mass_scaler horizontaltail_taper_ratio
      verticaltail_mass_coefficient wing_span min_dive_vel
      horizontaltail_vertical_tail_mount_location verticaltail_area verticaltail_moment_arm
      verticaltail_thickness_to_chord verticaltail_root_chord) horizontaltail_mass_coefficient ∧
      HasDerivAt (fun t => out_verticaltail_mass verticaltail_taper_ratio verticaltail_span
      design_gross_mass t fuselage_length horizontaltail_span landinggear_tail_hook_mass_scaler
      horizontaltail_taper_ratio verticaltail_mass_coefficient wing_span min_dive_vel
      horizontaltail_vertical_tail_mount_location verticaltail_area verticaltail_moment_arm
      verticaltail_thickness_to_chord verticaltail_root_chord 2)
      (J_verticaltail_mass__horizontaltail_mass_coefficient verticaltail_taper_ratio
      verticaltail_span design_gross_mass horizontaltail_mass_coefficient fuselage_length
      horizontaltail_span landinggear_tail_hook_mass_scaler horizontaltail_taper_ratio
      verticaltail_mass_coefficient wing_span min_dive_vel
      horizontaltail_vertical_tail_mount_location verticaltail_area verticaltail_moment_arm
      verticaltail_thickness_to_chord verticaltail_root_chord) horizontaltail_mass_coefficient) :=
      by
  rintro ⟨h1, h2⟩
  have e : (fun t => out_verticaltail_mass verticaltail_taper_ratio verticaltail_span
      design_gross_mass t fuselage_length horizontaltail_span landinggear_tail_hook_mass_scaler
      horizontaltail_taper_ratio verticaltail_mass_coefficient wing_span min_dive_vel
      horizontaltail_vertical_tail_mount_location verticaltail_area verticaltail_moment_arm
      verticaltail_thickness_to_chord verticaltail_root_chord 2) = fun t => 2 *
      out_verticaltail_mass verticaltail_taper_ratio verticaltail_span design_gross_mass t
      fuselage_length horizontaltail_span landinggear_tail_hook_mass_scaler
      horizontaltail_taper_ratio verticaltail_mass_coefficient wing_span min_dive_vel
      horizontaltail_vertical_tail_mount_location verticaltail_area verticaltail_moment_arm
      verticaltail_thickness_to_chord verticaltail_root_chord 1 := by
    funext t; simp only [out_verticaltail_mass, fh, fv]; ring
  rw [e] at h2
  have := h2.unique (h1.const_mul 2)
  exact hJ (by linarith)

example : J_verticaltail_mass__horizontaltail_mass_coefficient (2) (1) (2) (1) (1) (1) (2) (2) (1)
    (2) (2) (1) (2) (2) (2) (1) ≠ 0 := by
  simp only [J_verticaltail_mass__horizontaltail_mass_coefficient, dfh_dcoefhtail, fh, fv, temp_2]
  first | positivity | (norm_num; done) | (norm_num; positivity)

/-- The entry for `verticaltail_mass` by `horizontaltail_span` leaves out the factor `verticaltail_mass_scaler`: where it is not zero it cannot be the
derivative both for `verticaltail_mass_scaler = 1` and for `verticaltail_mass_scaler = 2`. -/
theorem J_verticaltail_mass__horizontaltail_span_violated (verticaltail_taper_ratio
    verticaltail_span design_gross_mass horizontaltail_mass_coefficient fuselage_length
    horizontaltail_span landinggear_tail_hook_mass_scaler horizontaltail_taper_ratio
    verticaltail_mass_coefficient wing_span min_dive_vel
    horizontaltail_vertical_tail_mount_location verticaltail_area verticaltail_moment_arm
    verticaltail_thickness_to_chord verticaltail_root_chord : ℝ) (hJ :
    J_verticaltail_mass__horizontaltail_span verticaltail_taper_ratio verticaltail_span
    design_gross_mass horizontaltail_mass_coefficient fuselage_length horizontaltail_span
    landinggear_tail_hook_mass_scaler horizontaltail_taper_ratio verticaltail_mass_coefficient
    wing_span min_dive_vel horizontaltail_vertical_tail_mount_location verticaltail_area
    verticaltail_moment_arm verticaltail_thickness_to_chord verticaltail_root_chord ≠ 0) :
    ¬ (HasDerivAt (fun t => out_verticaltail_mass verticaltail_taper_ratio verticaltail_span
      design_gross_mass horizontaltail_mass_coefficient fuselage_length t
      landinggear_tail_hook_mass_scaler horizontaltail_taper_ratio verticaltail_mass_coefficient
      wing_span min_dive_vel horizontaltail_vertical_tail_mount_location verticaltail_area
      verticaltail_moment_arm verticaltail_thickness_to_chord verticaltail_root_chord 1)
      (J_verticaltail_mass__horizontaltail_span verticaltail_taper_ratio verticaltail_span
      design_gross_mass horizontaltail_mass_coefficient fuselage_length horizontaltail_span
      landinggear_tail_hook_mass_scaler horizontaltail_taper_ratio verticaltail_mass_coefficient
      wing_span min_dive_vel horizontaltail_vertical_tail_mount_location verticaltail_area
      verticaltail_moment_arm verticaltail_thickness_to_chord verticaltail_root_chord)
      horizontaltail_span ∧ HasDerivAt (fun t => out_verticaltail_mass verticaltail_taper_ratio
      verticaltail_span design_gross_mass horizontaltail_mass_coefficient fuselage_length t
      landinggear_tail_hook_mass_scaler horizontaltail_taper_ratio verticaltail_mass_coefficient
      wing_span min_dive_vel horizontaltail_vertical_tail_mount_location verticaltail_area
      verticaltail_moment_arm verticaltail_thickness_to_chord verticaltail_root_chord 2)
      (J_verticaltail_mass__horizontaltail_span verticaltail_taper_ratio verticaltail_span
      design_gross_mass horizontaltail_mass_coefficient fuselage_length horizontaltail_span
      landinggear_tail_hook_mass_scaler horizontaltail_taper_ratio verticaltail_mass_coefficient
      wing_span min_dive_vel horizontaltail_vertical_tail_mount_location verticaltail_area
      verticaltail_moment_arm verticaltail_thickness_to_chord verticaltail_root_chord)
      horizontaltail_span) := by
  rintro ⟨h1, h2⟩
  have e : (fun t => out_verticaltail_mass verticaltail_taper_ratio verticaltail_span
      design_gross_mass horizontaltail_mass_coefficient fuselage_length t
      landinggear_tail_hook_mass_scaler horizontaltail_taper_ratio verticaltail_mass_coefficient
      wing_span min_dive_vel horizontaltail_vertical_tail_mount_location verticaltail_area
      verticaltail_moment_arm verticaltail_thickness_to_chord verticaltail_root_chord 2) = fun t
      => 2 * out_verticaltail_mass verticaltail_taper_ratio verticaltail_span design_gross_mass
      horizontaltail_mass_coefficient fuselage_length t landinggear_tail_hook_mass_scaler
      horizontaltail_taper_ratio verticaltail_mass_coefficient wing_span min_dive_vel
      horizontaltail_vertical_tail_mount_location verticaltail_area verticaltail_moment_arm
      verticaltail_thickness_to_chord verticaltail_root_chord 1 := by
    funext t; simp only [out_verticaltail_mass, fh, fv]; ring
  rw [e] at h2
  have := h2.unique (h1.const_mul 2)
  exact hJ (by linarith)

example : J_verticaltail_mass__horizontaltail_span (2) (1) (2) (1) (1) (1) (2) (2) (1) (2) (2) (1)
    (2) (2) (2) (1) ≠ 0 := by
  simp only [J_verticaltail_mass__horizontaltail_span, dfh_dspanhtail, fh, fv, temp_2]
  first | positivity | (norm_num; done) | (norm_num; positivity)

/-- The entry for `verticaltail_mass` by `horizontaltail_taper_ratio` leaves out the factor `verticaltail_mass_scaler`: where it is not zero it cannot be the
derivative both for `verticaltail_mass_scaler = 1` and for `verticaltail_mass_scaler = 2`. -/
theorem J_verticaltail_mass__horizontaltail_taper_ratio_violated (verticaltail_taper_ratio
    verticaltail_span design_gross_mass horizontaltail_mass_coefficient fuselage_length
    horizontaltail_span landinggear_tail_hook_mass_scaler horizontaltail_taper_ratio
    verticaltail_mass_coefficient wing_span min_dive_vel
    horizontaltail_vertical_tail_mount_location verticaltail_area verticaltail_moment_arm
    verticaltail_thickness_to_chord verticaltail_root_chord : ℝ) (hJ :
    J_verticaltail_mass__horizontaltail_taper_ratio verticaltail_taper_ratio verticaltail_span
    design_gross_mass horizontaltail_mass_coefficient fuselage_length horizontaltail_span
    landinggear_tail_hook_mass_scaler horizontaltail_taper_ratio verticaltail_mass_coefficient
    wing_span min_dive_vel horizontaltail_vertical_tail_mount_location verticaltail_area
    verticaltail_moment_arm verticaltail_thickness_to_chord verticaltail_root_chord ≠ 0) :
    ¬ (HasDerivAt (fun t => out_verticaltail_mass verticaltail_taper_ratio verticaltail_span
      design_gross_mass horizontaltail_mass_coefficient fuselage_length horizontaltail_span
      landinggear_tail_hook_mass_scaler t verticaltail_mass_coefficient wing_span min_dive_vel
      horizontaltail_vertical_tail_mount_location verticaltail_area verticaltail_moment_arm
      verticaltail_thickness_to_chord verticaltail_root_chord 1)
      (J_verticaltail_mass__horizontaltail_taper_ratio verticaltail_taper_ratio verticaltail_span
      design_gross_mass horizontaltail_mass_coefficient fuselage_length horizontaltail_span
      landinggear_tail_hook_mass_scaler horizontaltail_taper_ratio verticaltail_mass_coefficient
      wing_span min_dive_vel horizontaltail_vertical_tail_mount_location verticaltail_area
      verticaltail_moment_arm verticaltail_thickness_to_chord verticaltail_root_chord)
      horizontaltail_taper_ratio ∧ HasDerivAt (fun t => out_verticaltail_mass
      verticaltail_taper_ratio verticaltail_span design_gross_mass horizontaltail_mass_coefficient
      fuselage_length horizontaltail_span landinggear_tail_hook_mass_scaler t
      verticaltail_mass_coefficient wing_span min_dive_vel
      horizontaltail_vertical_tail_mount_location verticaltail_area verticaltail_moment_arm
      verticaltail_thickness_to_chord verticaltail_root_chord 2)
      (J_verticaltail_mass__horizontaltail_taper_ratio verticaltail_taper_ratio verticaltail_span
      design_gross_mass horizontaltail_mass_coefficient fuselage_length horizontaltail_span
      landinggear_tail_hook_mass_scaler horizontaltail_taper_ratio verticaltail_mass_coefficient
      wing_span min_dive_vel horizontaltail_vertical_tail_mount_location verticaltail_area
      verticaltail_moment_arm verticaltail_thickness_to_chord verticaltail_root_chord)
      horizontaltail_taper_ratio) := by
  rintro ⟨h1, h2⟩
  have e : (fun t => out_verticaltail_mass verticaltail_taper_ratio verticaltail_span
      design_gross_mass horizontaltail_mass_coefficient fuselage_length horizontaltail_span
      landinggear_tail_hook_mass_scaler t verticaltail_mass_coefficient wing_span min_dive_vel
      horizontaltail_vertical_tail_mount_location verticaltail_area verticaltail_moment_arm
      verticaltail_thickness_to_chord verticaltail_root_chord 2) = fun t => 2 *
      out_verticaltail_mass verticaltail_taper_ratio verticaltail_span design_gross_mass
      horizontaltail_mass_coefficient fuselage_length horizontaltail_span
      landinggear_tail_hook_mass_scaler t verticaltail_mass_coefficient wing_span min_dive_vel
      horizontaltail_vertical_tail_mount_location verticaltail_area verticaltail_moment_arm
      verticaltail_thickness_to_chord verticaltail_root_chord 1 := by
    funext t; simp only [out_verticaltail_mass, fh, fv]; ring
  rw [e] at h2
  have := h2.unique (h1.const_mul 2)
  exact hJ (by linarith)

example : J_verticaltail_mass__horizontaltail_taper_ratio (2) (1) (2) (1) (1) (1) (2) (2) (1) (2)
    (2) (1) (2) (2) (2) (1) ≠ 0 := by
  simp only [J_verticaltail_mass__horizontaltail_taper_ratio, dfh_dtaperratiohtail, fh, fv,
      temp_2]
  first | positivity | (norm_num; done) | (norm_num; positivity)

/-- The entry for `verticaltail_mass` by `horizontaltail_vertical_tail_mount_location` leaves out the factor `verticaltail_mass_scaler`: where it is not zero it cannot be the
derivative both for `verticaltail_mass_scaler = 1` and for `verticaltail_mass_scaler = 2`. -/
theorem J_verticaltail_mass__horizontaltail_vertical_tail_mount_location_violated
    (verticaltail_taper_ratio verticaltail_span design_gross_mass horizontaltail_mass_coefficient
    fuselage_length horizontaltail_span landinggear_tail_hook_mass_scaler
    horizontaltail_taper_ratio verticaltail_mass_coefficient wing_span min_dive_vel
    horizontaltail_vertical_tail_mount_location verticaltail_area verticaltail_moment_arm
    verticaltail_thickness_to_chord verticaltail_root_chord : ℝ) (hJ :
    J_verticaltail_mass__horizontaltail_vertical_tail_mount_location verticaltail_taper_ratio
    verticaltail_span design_gross_mass horizontaltail_mass_coefficient fuselage_length
    horizontaltail_span landinggear_tail_hook_mass_scaler horizontaltail_taper_ratio
    verticaltail_mass_coefficient wing_span min_dive_vel
    horizontaltail_vertical_tail_mount_location verticaltail_area verticaltail_moment_arm
    verticaltail_thickness_to_chord verticaltail_root_chord ≠ 0) :
    ¬ (HasDerivAt (fun t => out_verticaltail_mass verticaltail_taper_ratio verticaltail_span
      design_gross_mass horizontaltail_mass_coefficient fuselage_length horizontaltail_span
      landinggear_tail_hook_mass_scaler horizontaltail_taper_ratio verticaltail_mass_coefficient
      wing_span min_dive_vel t verticaltail_area verticaltail_moment_arm
      verticaltail_thickness_to_chord verticaltail_root_chord 1)
      (J_verticaltail_mass__horizontaltail_vertical_tail_mount_location verticaltail_taper_ratio
      verticaltail_span design_gross_mass horizontaltail_mass_coefficient fuselage_length
      horizontaltail_span landinggear_tail_hook_mass_scaler horizontaltail_taper_ratio
      verticaltail_mass_coefficient wing_span min_dive_vel
      horizontaltail_vertical_tail_mount_location verticaltail_area verticaltail_moment_arm
      verticaltail_thickness_to_chord verticaltail_root_chord)
      horizontaltail_vertical_tail_mount_location ∧ HasDerivAt (fun t => out_verticaltail_mass
      verticaltail_taper_ratio verticaltail_span design_gross_mass horizontaltail_mass_coefficient
      fuselage_length horizontaltail_span landinggear_tail_hook_mass_scaler
      horizontaltail_taper_ratio verticaltail_mass_coefficient wing_span min_dive_vel t
      verticaltail_area verticaltail_moment_arm verticaltail_thickness_to_chord
      verticaltail_root_chord 2) (J_verticaltail_mass__horizontaltail_vertical_tail_mount_location
      verticaltail_taper_ratio verticaltail_span design_gross_mass horizontaltail_mass_coefficient
      fuselage_length horizontaltail_span landinggear_tail_hook_mass_scaler
      horizontaltail_taper_ratio verticaltail_mass_coefficient wing_span min_dive_vel
      horizontaltail_vertical_tail_mount_location verticaltail_area verticaltail_moment_arm
      verticaltail_thickness_to_chord verticaltail_root_chord)
      horizontaltail_vertical_tail_mount_location) := by
  rintro ⟨h1, h2⟩
  have e : (fun t => out_verticaltail_mass verticaltail_taper_ratio verticaltail_span
      design_gross_mass horizontaltail_mass_coefficient fuselage_length horizontaltail_span
      landinggear_tail_hook_mass_scaler horizontaltail_taper_ratio verticaltail_mass_coefficient
      wing_span min_dive_vel t verticaltail_area verticaltail_moment_arm
      verticaltail_thickness_to_chord verticaltail_root_chord 2) = fun t => 2 *
      out_verticaltail_mass verticaltail_taper_ratio verticaltail_span design_gross_mass
      horizontaltail_mass_coefficient fuselage_length horizontaltail_span
      landinggear_tail_hook_mass_scaler horizontaltail_taper_ratio verticaltail_mass_coefficient
      wing_span min_dive_vel t verticaltail_area verticaltail_moment_arm
      verticaltail_thickness_to_chord verticaltail_root_chord 1 := by
    funext t; simp only [out_verticaltail_mass, fh, fv]; ring
  rw [e] at h2
  have := h2.unique (h1.const_mul 2)
  exact hJ (by linarith)

example : J_verticaltail_mass__horizontaltail_vertical_tail_mount_location (2) (1) (2) (1) (1) (1)
    (2) (2) (1) (2) (2) (1) (2) (2) (2) (1) ≠ 0 := by
  simp only [J_verticaltail_mass__horizontaltail_vertical_tail_mount_location, fh, fv]
  first | positivity | (norm_num; done) | (norm_num; positivity)

/-- The entry for `verticaltail_mass` by `landinggear_tail_hook_mass_scaler` leaves out the factor `verticaltail_mass_scaler`: where it is not zero it cannot be the
derivative both for `verticaltail_mass_scaler = 1` and for `verticaltail_mass_scaler = 2`. -/
theorem J_verticaltail_mass__landinggear_tail_hook_mass_scaler_violated (verticaltail_taper_ratio
    verticaltail_span design_gross_mass horizontaltail_mass_coefficient fuselage_length
    horizontaltail_span landinggear_tail_hook_mass_scaler horizontaltail_taper_ratio
    verticaltail_mass_coefficient wing_span min_dive_vel
    horizontaltail_vertical_tail_mount_location verticaltail_area verticaltail_moment_arm
    verticaltail_thickness_to_chord verticaltail_root_chord : ℝ) (hJ :
    J_verticaltail_mass__landinggear_tail_hook_mass_scaler verticaltail_taper_ratio
    verticaltail_span design_gross_mass horizontaltail_mass_coefficient fuselage_length
    horizontaltail_span landinggear_tail_hook_mass_scaler horizontaltail_taper_ratio
    verticaltail_mass_coefficient wing_span min_dive_vel
    horizontaltail_vertical_tail_mount_location verticaltail_area verticaltail_moment_arm
    verticaltail_thickness_to_chord verticaltail_root_chord ≠ 0) :
    ¬ (HasDerivAt (fun t => out_verticaltail_mass verticaltail_taper_ratio verticaltail_span
      design_gross_mass horizontaltail_mass_coefficient fuselage_length horizontaltail_span t
      horizontaltail_taper_ratio verticaltail_mass_coefficient wing_span min_dive_vel
      horizontaltail_vertical_tail_mount_location verticaltail_area verticaltail_moment_arm
      verticaltail_thickness_to_chord verticaltail_root_chord 1)
      (J_verticaltail_mass__landinggear_tail_hook_mass_scaler verticaltail_taper_ratio
      verticaltail_span design_gross_mass horizontaltail_mass_coefficient fuselage_length
      horizontaltail_span landinggear_tail_hook_mass_scaler horizontaltail_taper_ratio
      verticaltail_mass_coefficient wing_span min_dive_vel
      horizontaltail_vertical_tail_mount_location verticaltail_area verticaltail_moment_arm
      verticaltail_thickness_to_chord verticaltail_root_chord) landinggear_tail_hook_mass_scaler ∧
      HasDerivAt (fun t => out_verticaltail_mass verticaltail_taper_ratio verticaltail_span
      design_gross_mass horizontaltail_mass_coefficient fuselage_length horizontaltail_span t
      horizontaltail_taper_ratio verticaltail_mass_coefficient wing_span min_dive_vel
      horizontaltail_vertical_tail_mount_location verticaltail_area verticaltail_moment_arm
      verticaltail_thickness_to_chord verticaltail_root_chord 2)
      (J_verticaltail_mass__landinggear_tail_hook_mass_scaler verticaltail_taper_ratio
      verticaltail_span design_gross_mass horizontaltail_mass_coefficient fuselage_length
      horizontaltail_span landinggear_tail_hook_mass_scaler horizontaltail_taper_ratio
      verticaltail_mass_coefficient wing_span min_dive_vel
      horizontaltail_vertical_tail_mount_location verticaltail_area verticaltail_moment_arm
      verticaltail_thickness_to_chord verticaltail_root_chord) landinggear_tail_hook_mass_scaler)
      := by
  rintro ⟨h1, h2⟩
  have e : (fun t => out_verticaltail_mass verticaltail_taper_ratio verticaltail_span
      design_gross_mass horizontaltail_mass_coefficient fuselage_length horizontaltail_span t
      horizontaltail_taper_ratio verticaltail_mass_coefficient wing_span min_dive_vel
      horizontaltail_vertical_tail_mount_location verticaltail_area verticaltail_moment_arm
      verticaltail_thickness_to_chord verticaltail_root_chord 2) = fun t => 2 *
      out_verticaltail_mass verticaltail_taper_ratio verticaltail_span design_gross_mass
      horizontaltail_mass_coefficient fuselage_length horizontaltail_span t
      horizontaltail_taper_ratio verticaltail_mass_coefficient wing_span min_dive_vel
      horizontaltail_vertical_tail_mount_location verticaltail_area verticaltail_moment_arm
      verticaltail_thickness_to_chord verticaltail_root_chord 1 := by
    funext t; simp only [out_verticaltail_mass, fh, fv]; ring
  rw [e] at h2
  have := h2.unique (h1.const_mul 2)
  exact hJ (by linarith)

example : J_verticaltail_mass__landinggear_tail_hook_mass_scaler (2) (1) (2) (1) (1) (1) (2) (2)
    (1) (2) (2) (1) (2) (2) (2) (1) ≠ 0 := by
  simp only [J_verticaltail_mass__landinggear_tail_hook_mass_scaler, dfh_dhookfac, fh, fv, temp_2]
  first | positivity | (norm_num; done) | (norm_num; positivity)

/-- The entry for `verticaltail_mass` by `min_dive_vel` leaves out the factor `verticaltail_mass_scaler`: where it is not zero it cannot be the
derivative both for `verticaltail_mass_scaler = 1` and for `verticaltail_mass_scaler = 2`. -/
theorem J_verticaltail_mass__min_dive_vel_violated (verticaltail_taper_ratio verticaltail_span
    design_gross_mass horizontaltail_mass_coefficient fuselage_length horizontaltail_span
    landinggear_tail_hook_mass_scaler horizontaltail_taper_ratio verticaltail_mass_coefficient
    wing_span min_dive_vel horizontaltail_vertical_tail_mount_location verticaltail_area
    verticaltail_moment_arm verticaltail_thickness_to_chord verticaltail_root_chord : ℝ) (hJ :
    J_verticaltail_mass__min_dive_vel verticaltail_taper_ratio verticaltail_span design_gross_mass
    horizontaltail_mass_coefficient fuselage_length horizontaltail_span
    landinggear_tail_hook_mass_scaler horizontaltail_taper_ratio verticaltail_mass_coefficient
    wing_span min_dive_vel horizontaltail_vertical_tail_mount_location verticaltail_area
    verticaltail_moment_arm verticaltail_thickness_to_chord verticaltail_root_chord ≠ 0) :
    ¬ (HasDerivAt (fun t => out_verticaltail_mass verticaltail_taper_ratio verticaltail_span
      design_gross_mass horizontaltail_mass_coefficient fuselage_length horizontaltail_span
      landinggear_tail_hook_mass_scaler horizontaltail_taper_ratio verticaltail_mass_coefficient
      wing_span t horizontaltail_vertical_tail_mount_location verticaltail_area
      verticaltail_moment_arm verticaltail_thickness_to_chord verticaltail_root_chord 1)
      (J_verticaltail_mass__min_dive_vel verticaltail_taper_ratio verticaltail_span
      design_gross_mass horizontaltail_mass_coefficient fuselage_length horizontaltail_span
      landinggear_tail_hook_mass_scaler horizontaltail_taper_ratio verticaltail_mass_coefficient
      wing_span min_dive_vel horizontaltail_vertical_tail_mount_location verticaltail_area
      verticaltail_moment_arm verticaltail_thickness_to_chord verticaltail_root_chord)
      min_dive_vel ∧ HasDerivAt (fun t => out_verticaltail_mass verticaltail_taper_ratio
      verticaltail_span design_gross_mass horizontaltail_mass_coefficient fuselage_length
      horizontaltail_span landinggear_tail_hook_mass_scaler horizontaltail_taper_ratio
      verticaltail_mass_coefficient wing_span t horizontaltail_vertical_tail_mount_location
      verticaltail_area verticaltail_moment_arm verticaltail_thickness_to_chord
      verticaltail_root_chord 2) (J_verticaltail_mass__min_dive_vel verticaltail_taper_ratio
      verticaltail_span design_gross_mass horizontaltail_mass_coefficient fuselage_length
      horizontaltail_span landinggear_tail_hook_mass_scaler horizontaltail_taper_ratio
      verticaltail_mass_coefficient wing_span min_dive_vel
      horizontaltail_vertical_tail_mount_location verticaltail_area verticaltail_moment_arm
      verticaltail_thickness_to_chord verticaltail_root_chord) min_dive_vel) := by
  rintro ⟨h1, h2⟩
  have e : (fun t => out_verticaltail_mass verticaltail_taper_ratio verticaltail_span
      design_gross_mass horizontaltail_mass_coefficient fuselage_length horizontaltail_span
      landinggear_tail_hook_mass_scaler horizontaltail_taper_ratio verticaltail_mass_coefficient
      wing_span t horizontaltail_vertical_tail_mount_location verticaltail_area
      verticaltail_moment_arm verticaltail_thickness_to_chord verticaltail_root_chord 2) = fun t
      => 2 * out_verticaltail_mass verticaltail_taper_ratio verticaltail_span design_gross_mass
      horizontaltail_mass_coefficient fuselage_length horizontaltail_span
      landinggear_tail_hook_mass_scaler horizontaltail_taper_ratio verticaltail_mass_coefficient
      wing_span t horizontaltail_vertical_tail_mount_location verticaltail_area
      verticaltail_moment_arm verticaltail_thickness_to_chord verticaltail_root_chord 1 := by
    funext t; simp only [out_verticaltail_mass, fh, fv]; ring
  rw [e] at h2
  have := h2.unique (h1.const_mul 2)
  exact hJ (by linarith)

example : J_verticaltail_mass__min_dive_vel (2) (1) (2) (1) (1) (1) (2) (2) (1) (2) (2) (1) (2)
    (2) (2) (1) ≠ 0 := by
  simp only [J_verticaltail_mass__min_dive_vel, fh, fv]
  first | positivity | (norm_num; done) | (norm_num; positivity)

/-- The entry for `verticaltail_mass` by `verticaltail_area` leaves out the factor `verticaltail_mass_scaler`: where it is not zero it cannot be the
derivative both for `verticaltail_mass_scaler = 1` and for `verticaltail_mass_scaler = 2`. -/
theorem J_verticaltail_mass__verticaltail_area_violated (verticaltail_taper_ratio
    verticaltail_span design_gross_mass horizontaltail_mass_coefficient fuselage_length
    horizontaltail_span landinggear_tail_hook_mass_scaler horizontaltail_taper_ratio
    verticaltail_mass_coefficient wing_span min_dive_vel
    horizontaltail_vertical_tail_mount_location verticaltail_area verticaltail_moment_arm
    verticaltail_thickness_to_chord verticaltail_root_chord : ℝ) (hJ :
    J_verticaltail_mass__verticaltail_area verticaltail_taper_ratio verticaltail_span
    design_gross_mass horizontaltail_mass_coefficient fuselage_length horizontaltail_span
    landinggear_tail_hook_mass_scaler horizontaltail_taper_ratio verticaltail_mass_coefficient
    wing_span min_dive_vel horizontaltail_vertical_tail_mount_location verticaltail_area
    verticaltail_moment_arm verticaltail_thickness_to_chord verticaltail_root_chord ≠ 0) :
    ¬ (HasDerivAt (fun t => out_verticaltail_mass verticaltail_taper_ratio verticaltail_span
      design_gross_mass horizontaltail_mass_coefficient fuselage_length horizontaltail_span
      landinggear_tail_hook_mass_scaler horizontaltail_taper_ratio verticaltail_mass_coefficient
      wing_span min_dive_vel horizontaltail_vertical_tail_mount_location t verticaltail_moment_arm
      verticaltail_thickness_to_chord verticaltail_root_chord 1)
      (J_verticaltail_mass__verticaltail_area verticaltail_taper_ratio verticaltail_span
      design_gross_mass horizontaltail_mass_coefficient fuselage_length horizontaltail_span
      landinggear_tail_hook_mass_scaler horizontaltail_taper_ratio verticaltail_mass_coefficient
      wing_span min_dive_vel horizontaltail_vertical_tail_mount_location verticaltail_area
      verticaltail_moment_arm verticaltail_thickness_to_chord verticaltail_root_chord)
      verticaltail_area ∧ HasDerivAt (fun t => out_verticaltail_mass verticaltail_taper_ratio
      verticaltail_span design_gross_mass horizontaltail_mass_coefficient fuselage_length
      horizontaltail_span landinggear_tail_hook_mass_scaler horizontaltail_taper_ratio
      verticaltail_mass_coefficient wing_span min_dive_vel
      horizontaltail_vertical_tail_mount_location t verticaltail_moment_arm
      verticaltail_thickness_to_chord verticaltail_root_chord 2)
      (J_verticaltail_mass__verticaltail_area verticaltail_taper_ratio verticaltail_span
      design_gross_mass horizontaltail_mass_coefficient fuselage_length horizontaltail_span
      landinggear_tail_hook_mass_scaler horizontaltail_taper_ratio verticaltail_mass_coefficient
      wing_span min_dive_vel horizontaltail_vertical_tail_mount_location verticaltail_area
      verticaltail_moment_arm verticaltail_thickness_to_chord verticaltail_root_chord)
      verticaltail_area) := by
  rintro ⟨h1, h2⟩
  have e : (fun t => out_verticaltail_mass verticaltail_taper_ratio verticaltail_span
      design_gross_mass horizontaltail_mass_coefficient fuselage_length horizontaltail_span
      landinggear_tail_hook_mass_scaler horizontaltail_taper_ratio verticaltail_mass_coefficient
      wing_span min_dive_vel horizontaltail_vertical_tail_mount_location t verticaltail_moment_arm
      verticaltail_thickness_to_chord verticaltail_root_chord 2) = fun t => 2 *
      out_verticaltail_mass verticaltail_taper_ratio verticaltail_span design_gross_mass
      horizontaltail_mass_coefficient fuselage_length horizontaltail_span
      landinggear_tail_hook_mass_scaler horizontaltail_taper_ratio verticaltail_mass_coefficient
      wing_span min_dive_vel horizontaltail_vertical_tail_mount_location t verticaltail_moment_arm
      verticaltail_thickness_to_chord verticaltail_root_chord 1 := by
    funext t; simp only [out_verticaltail_mass, fh, fv]; ring
  rw [e] at h2
  have := h2.unique (h1.const_mul 2)
  exact hJ (by linarith)

example : J_verticaltail_mass__verticaltail_area (2) (1) (2) (1) (1) (1) (2) (2) (1) (2) (2) (1)
    (2) (2) (2) (1) ≠ 0 := by
  simp only [J_verticaltail_mass__verticaltail_area, fh, fv]
  first | positivity | (norm_num; done) | (norm_num; positivity)

/-- The entry for `verticaltail_mass` by `verticaltail_mass_coefficient` leaves out the factor `verticaltail_mass_scaler`: where it is not zero it cannot be the
derivative both for `verticaltail_mass_scaler = 1` and for `verticaltail_mass_scaler = 2`. -/
theorem J_verticaltail_mass__verticaltail_mass_coefficient_violated (verticaltail_taper_ratio
    verticaltail_span design_gross_mass horizontaltail_mass_coefficient fuselage_length
    horizontaltail_span landinggear_tail_hook_mass_scaler horizontaltail_taper_ratio
    verticaltail_mass_coefficient wing_span min_dive_vel
    horizontaltail_vertical_tail_mount_location verticaltail_area verticaltail_moment_arm
    verticaltail_thickness_to_chord verticaltail_root_chord : ℝ) (hJ :
    J_verticaltail_mass__verticaltail_mass_coefficient verticaltail_taper_ratio verticaltail_span
    design_gross_mass horizontaltail_mass_coefficient fuselage_length horizontaltail_span
    landinggear_tail_hook_mass_scaler horizontaltail_taper_ratio verticaltail_mass_coefficient
    wing_span min_dive_vel horizontaltail_vertical_tail_mount_location verticaltail_area
    verticaltail_moment_arm verticaltail_thickness_to_chord verticaltail_root_chord ≠ 0) :
    ¬ (HasDerivAt (fun t => out_verticaltail_mass verticaltail_taper_ratio verticaltail_span
      design_gross_mass horizontaltail_mass_coefficient fuselage_length horizontaltail_span
      landinggear_tail_hook_mass_scaler horizontaltail_taper_ratio t wing_span min_dive_vel
      horizontaltail_vertical_tail_mount_location verticaltail_area verticaltail_moment_arm
      verticaltail_thickness_to_chord verticaltail_root_chord 1)
      (J_verticaltail_mass__verticaltail_mass_coefficient verticaltail_taper_ratio
      verticaltail_span design_gross_mass horizontaltail_mass_coefficient fuselage_length
      horizontaltail_span landinggear_tail_hook_mass_scaler horizontaltail_taper_ratio
      verticaltail_mass_coefficient wing_span min_dive_vel
      horizontaltail_vertical_tail_mount_location verticaltail_area verticaltail_moment_arm
      verticaltail_thickness_to_chord verticaltail_root_chord) verticaltail_mass_coefficient ∧
      HasDerivAt (fun t => out_verticaltail_mass verticaltail_taper_ratio verticaltail_span
      design_gross_mass horizontaltail_mass_coefficient fuselage_length horizontaltail_span
      landinggear_tail_hook_mass_scaler horizontaltail_taper_ratio t wing_span min_dive_vel
      horizontaltail_vertical_tail_mount_location verticaltail_area verticaltail_moment_arm
      verticaltail_thickness_to_chord verticaltail_root_chord 2)
      (J_verticaltail_mass__verticaltail_mass_coefficient verticaltail_taper_ratio
      verticaltail_span design_gross_mass horizontaltail_mass_coefficient fuselage_length
      horizontaltail_span landinggear_tail_hook_mass_scaler horizontaltail_taper_ratio
      verticaltail_mass_coefficient wing_span min_dive_vel
      horizontaltail_vertical_tail_mount_location verticaltail_area verticaltail_moment_arm
      verticaltail_thickness_to_chord verticaltail_root_chord) verticaltail_mass_coefficient) :=
      by
  rintro ⟨h1, h2⟩
  have e : (fun t => out_verticaltail_mass verticaltail_taper_ratio verticaltail_span
      design_gross_mass horizontaltail_mass_coefficient fuselage_length horizontaltail_span
      landinggear_tail_hook_mass_scaler horizontaltail_taper_ratio t wing_span min_dive_vel
      horizontaltail_vertical_tail_mount_location verticaltail_area verticaltail_moment_arm
      verticaltail_thickness_to_chord verticaltail_root_chord 2) = fun t => 2 *
      out_verticaltail_mass verticaltail_taper_ratio verticaltail_span design_gross_mass
      horizontaltail_mass_coefficient fuselage_length horizontaltail_span
      landinggear_tail_hook_mass_scaler horizontaltail_taper_ratio t wing_span min_dive_vel
      horizontaltail_vertical_tail_mount_location verticaltail_area verticaltail_moment_arm
      verticaltail_thickness_to_chord verticaltail_root_chord 1 := by
    funext t; simp only [out_verticaltail_mass, fh, fv]; ring
  rw [e] at h2
  have := h2.unique (h1.const_mul 2)
  exact hJ (by linarith)

example : J_verticaltail_mass__verticaltail_mass_coefficient (2) (1) (2) (1) (1) (1) (2) (2) (1)
    (2) (2) (1) (2) (2) (2) (1) ≠ 0 := by
  simp only [J_verticaltail_mass__verticaltail_mass_coefficient, dfv_dcoefvtail, fh, fv, temp_2]
  first | positivity | (norm_num; done) | (norm_num; positivity)

/-- The entry for `verticaltail_mass` by `verticaltail_moment_arm` leaves out the factor `verticaltail_mass_scaler`: where it is not zero it cannot be the
derivative both for `verticaltail_mass_scaler = 1` and for `verticaltail_mass_scaler = 2`. -/
theorem J_verticaltail_mass__verticaltail_moment_arm_violated (verticaltail_taper_ratio
    verticaltail_span design_gross_mass horizontaltail_mass_coefficient fuselage_length
    horizontaltail_span landinggear_tail_hook_mass_scaler horizontaltail_taper_ratio
    verticaltail_mass_coefficient wing_span min_dive_vel
    horizontaltail_vertical_tail_mount_location verticaltail_area verticaltail_moment_arm
    verticaltail_thickness_to_chord verticaltail_root_chord : ℝ) (hJ :
    J_verticaltail_mass__verticaltail_moment_arm verticaltail_taper_ratio verticaltail_span
    design_gross_mass horizontaltail_mass_coefficient fuselage_length horizontaltail_span
    landinggear_tail_hook_mass_scaler horizontaltail_taper_ratio verticaltail_mass_coefficient
    wing_span min_dive_vel horizontaltail_vertical_tail_mount_location verticaltail_area
    verticaltail_moment_arm verticaltail_thickness_to_chord verticaltail_root_chord ≠ 0) :
    ¬ (HasDerivAt (fun t => out_verticaltail_mass verticaltail_taper_ratio verticaltail_span
      design_gross_mass horizontaltail_mass_coefficient fuselage_length horizontaltail_span
      landinggear_tail_hook_mass_scaler horizontaltail_taper_ratio verticaltail_mass_coefficient
      wing_span min_dive_vel horizontaltail_vertical_tail_mount_location verticaltail_area t
      verticaltail_thickness_to_chord verticaltail_root_chord 1)
      (J_verticaltail_mass__verticaltail_moment_arm verticaltail_taper_ratio verticaltail_span
      design_gross_mass horizontaltail_mass_coefficient fuselage_length horizontaltail_span
      landinggear_tail_hook_mass_scaler horizontaltail_taper_ratio verticaltail_mass_coefficient
      wing_span min_dive_vel horizontaltail_vertical_tail_mount_location verticaltail_area
      verticaltail_moment_arm verticaltail_thickness_to_chord verticaltail_root_chord)
      verticaltail_moment_arm ∧ HasDerivAt (fun t => out_verticaltail_mass
      verticaltail_taper_ratio verticaltail_span design_gross_mass horizontaltail_mass_coefficient
      fuselage_length horizontaltail_span landinggear_tail_hook_mass_scaler
      horizontaltail_taper_ratio verticaltail_mass_coefficient wing_span min_dive_vel
      horizontaltail_vertical_tail_mount_location verticaltail_area t
      verticaltail_thickness_to_chord verticaltail_root_chord 2)
      (J_verticaltail_mass__verticaltail_moment_arm verticaltail_taper_ratio verticaltail_span
      design_gross_mass horizontaltail_mass_coefficient fuselage_length horizontaltail_span
      landinggear_tail_hook_mass_scaler horizontaltail_taper_ratio verticaltail_mass_coefficient
      wing_span min_dive_vel horizontaltail_vertical_tail_mount_location verticaltail_area
      verticaltail_moment_arm verticaltail_thickness_to_chord verticaltail_root_chord)
      verticaltail_moment_arm) := by
  rintro ⟨h1, h2⟩
  have e : (fun t => out_verticaltail_mass verticaltail_taper_ratio verticaltail_span
      design_gross_mass horizontaltail_mass_coefficient fuselage_length horizontaltail_span
      landinggear_tail_hook_mass_scaler horizontaltail_taper_ratio verticaltail_mass_coefficient
      wing_span min_dive_vel horizontaltail_vertical_tail_mount_location verticaltail_area t
      verticaltail_thickness_to_chord verticaltail_root_chord 2) = fun t => 2 *
      out_verticaltail_mass verticaltail_taper_ratio verticaltail_span design_gross_mass
      horizontaltail_mass_coefficient fuselage_length horizontaltail_span
      landinggear_tail_hook_mass_scaler horizontaltail_taper_ratio verticaltail_mass_coefficient
      wing_span min_dive_vel horizontaltail_vertical_tail_mount_location verticaltail_area t
      verticaltail_thickness_to_chord verticaltail_root_chord 1 := by
    funext t; simp only [out_verticaltail_mass, fh, fv]; ring
  rw [e] at h2
  have := h2.unique (h1.const_mul 2)
  exact hJ (by linarith)

example : J_verticaltail_mass__verticaltail_moment_arm (2) (1) (2) (1) (1) (1) (2) (2) (1) (2) (2)
    (1) (2) (2) (2) (1) ≠ 0 := by
  simp only [J_verticaltail_mass__verticaltail_moment_arm, fh, fv]
  first | positivity | (norm_num; done) | (norm_num; positivity)

/-- The entry for `verticaltail_mass` by `verticaltail_root_chord` leaves out the factor `verticaltail_mass_scaler`: where it is not zero it cannot be the
derivative both for `verticaltail_mass_scaler = 1` and for `verticaltail_mass_scaler = 2`. -/
theorem J_verticaltail_mass__verticaltail_root_chord_violated (verticaltail_taper_ratio
    verticaltail_span design_gross_mass horizontaltail_mass_coefficient fuselage_length
    horizontaltail_span landinggear_tail_hook_mass_scaler horizontaltail_taper_ratio
    verticaltail_mass_coefficient wing_span min_dive_vel
    horizontaltail_vertical_tail_mount_location verticaltail_area verticaltail_moment_arm
    verticaltail_thickness_to_chord verticaltail_root_chord : ℝ) (hJ :
    J_verticaltail_mass__verticaltail_root_chord verticaltail_taper_ratio verticaltail_span
    design_gross_mass horizontaltail_mass_coefficient fuselage_length horizontaltail_span
    landinggear_tail_hook_mass_scaler horizontaltail_taper_ratio verticaltail_mass_coefficient
    wing_span min_dive_vel horizontaltail_vertical_tail_mount_location verticaltail_area
    verticaltail_moment_arm verticaltail_thickness_to_chord verticaltail_root_chord ≠ 0) :
    ¬ (HasDerivAt (fun t => out_verticaltail_mass verticaltail_taper_ratio verticaltail_span
      design_gross_mass horizontaltail_mass_coefficient fuselage_length horizontaltail_span
      landinggear_tail_hook_mass_scaler horizontaltail_taper_ratio verticaltail_mass_coefficient
      wing_span min_dive_vel horizontaltail_vertical_tail_mount_location verticaltail_area
      verticaltail_moment_arm verticaltail_thickness_to_chord t 1)
      (J_verticaltail_mass__verticaltail_root_chord verticaltail_taper_ratio verticaltail_span
      design_gross_mass horizontaltail_mass_coefficient fuselage_length horizontaltail_span
      landinggear_tail_hook_mass_scaler horizontaltail_taper_ratio verticaltail_mass_coefficient
      wing_span min_dive_vel horizontaltail_vertical_tail_mount_location verticaltail_area
      verticaltail_moment_arm verticaltail_thickness_to_chord verticaltail_root_chord)
      verticaltail_root_chord ∧ HasDerivAt (fun t => out_verticaltail_mass
      verticaltail_taper_ratio verticaltail_span design_gross_mass horizontaltail_mass_coefficient
      fuselage_length horizontaltail_span landinggear_tail_hook_mass_scaler
      horizontaltail_taper_ratio verticaltail_mass_coefficient wing_span min_dive_vel
      horizontaltail_vertical_tail_mount_location verticaltail_area verticaltail_moment_arm
      verticaltail_thickness_to_chord t 2) (J_verticaltail_mass__verticaltail_root_chord
      verticaltail_taper_ratio verticaltail_span design_gross_mass horizontaltail_mass_coefficient
      fuselage_length horizontaltail_span landinggear_tail_hook_mass_scaler
      horizontaltail_taper_ratio verticaltail_mass_coefficient wing_span min_dive_vel
      horizontaltail_vertical_tail_mount_location verticaltail_area verticaltail_moment_arm
      verticaltail_thickness_to_chord verticaltail_root_chord) verticaltail_root_chord) := by
  rintro ⟨h1, h2⟩
  have e : (fun t => out_verticaltail_mass verticaltail_taper_ratio verticaltail_span
      design_gross_mass horizontaltail_mass_coefficient fuselage_length horizontaltail_span
      landinggear_tail_hook_mass_scaler horizontaltail_taper_ratio verticaltail_mass_coefficient
      wing_span min_dive_vel horizontaltail_vertical_tail_mount_location verticaltail_area
      verticaltail_moment_arm verticaltail_thickness_to_chord t 2) = fun t => 2 *
      out_verticaltail_mass verticaltail_taper_ratio verticaltail_span design_gross_mass
      horizontaltail_mass_coefficient fuselage_length horizontaltail_span
      landinggear_tail_hook_mass_scaler horizontaltail_taper_ratio verticaltail_mass_coefficient
      wing_span min_dive_vel horizontaltail_vertical_tail_mount_location verticaltail_area
      verticaltail_moment_arm verticaltail_thickness_to_chord t 1 := by
    funext t; simp only [out_verticaltail_mass, fh, fv]; ring
  rw [e] at h2
  have := h2.unique (h1.const_mul 2)
  exact hJ (by linarith)

example : J_verticaltail_mass__verticaltail_root_chord (2) (1) (2) (1) (1) (1) (2) (2) (1) (2) (2)
    (1) (2) (2) (2) (1) ≠ 0 := by
  simp only [J_verticaltail_mass__verticaltail_root_chord, fh, fv]
  first | positivity | (norm_num; done) | (norm_num; positivity)

/-- The entry for `verticaltail_mass` by `verticaltail_span` leaves out the factor `verticaltail_mass_scaler`: where it is not zero it cannot be the
derivative both for `verticaltail_mass_scaler = 1` and for `verticaltail_mass_scaler = 2`. -/
theorem J_verticaltail_mass__verticaltail_span_violated (verticaltail_taper_ratio
    verticaltail_span design_gross_mass horizontaltail_mass_coefficient fuselage_length
    horizontaltail_span landinggear_tail_hook_mass_scaler horizontaltail_taper_ratio
    verticaltail_mass_coefficient wing_span min_dive_vel
    horizontaltail_vertical_tail_mount_location verticaltail_area verticaltail_moment_arm
    verticaltail_thickness_to_chord verticaltail_root_chord : ℝ) (hJ :
    J_verticaltail_mass__verticaltail_span verticaltail_taper_ratio verticaltail_span
    design_gross_mass horizontaltail_mass_coefficient fuselage_length horizontaltail_span
    landinggear_tail_hook_mass_scaler horizontaltail_taper_ratio verticaltail_mass_coefficient
    wing_span min_dive_vel horizontaltail_vertical_tail_mount_location verticaltail_area
    verticaltail_moment_arm verticaltail_thickness_to_chord verticaltail_root_chord ≠ 0) :
    ¬ (HasDerivAt (fun t => out_verticaltail_mass verticaltail_taper_ratio t design_gross_mass
      horizontaltail_mass_coefficient fuselage_length horizontaltail_span
      landinggear_tail_hook_mass_scaler horizontaltail_taper_ratio verticaltail_mass_coefficient
      wing_span min_dive_vel horizontaltail_vertical_tail_mount_location verticaltail_area
      verticaltail_moment_arm verticaltail_thickness_to_chord verticaltail_root_chord 1)
      (J_verticaltail_mass__verticaltail_span verticaltail_taper_ratio verticaltail_span
      design_gross_mass horizontaltail_mass_coefficient fuselage_length horizontaltail_span
      landinggear_tail_hook_mass_scaler horizontaltail_taper_ratio verticaltail_mass_coefficient
      wing_span min_dive_vel horizontaltail_vertical_tail_mount_location verticaltail_area
      verticaltail_moment_arm verticaltail_thickness_to_chord verticaltail_root_chord)
      verticaltail_span ∧ HasDerivAt (fun t => out_verticaltail_mass verticaltail_taper_ratio t
      design_gross_mass horizontaltail_mass_coefficient fuselage_length horizontaltail_span
      landinggear_tail_hook_mass_scaler horizontaltail_taper_ratio verticaltail_mass_coefficient
      wing_span min_dive_vel horizontaltail_vertical_tail_mount_location verticaltail_area
      verticaltail_moment_arm verticaltail_thickness_to_chord verticaltail_root_chord 2)
      (J_verticaltail_mass__verticaltail_span verticaltail_taper_ratio verticaltail_span
      design_gross_mass horizontaltail_mass_coefficient fuselage_length horizontaltail_span
      landinggear_tail_hook_mass_scaler horizontaltail_taper_ratio verticaltail_mass_coefficient
      wing_span min_dive_vel horizontaltail_vertical_tail_mount_location verticaltail_area
      verticaltail_moment_arm verticaltail_thickness_to_chord verticaltail_root_chord)
      verticaltail_span) := by
  rintro ⟨h1, h2⟩
  have e : (fun t => out_verticaltail_mass verticaltail_taper_ratio t design_gross_mass
      horizontaltail_mass_coefficient fuselage_length horizontaltail_span
      landinggear_tail_hook_mass_scaler horizontaltail_taper_ratio verticaltail_mass_coefficient
      wing_span min_dive_vel horizontaltail_vertical_tail_mount_location verticaltail_area
      verticaltail_moment_arm verticaltail_thickness_to_chord verticaltail_root_chord 2) = fun t
      => 2 * out_verticaltail_mass verticaltail_taper_ratio t design_gross_mass
      horizontaltail_mass_coefficient fuselage_length horizontaltail_span
      landinggear_tail_hook_mass_scaler horizontaltail_taper_ratio verticaltail_mass_coefficient
      wing_span min_dive_vel horizontaltail_vertical_tail_mount_location verticaltail_area
      verticaltail_moment_arm verticaltail_thickness_to_chord verticaltail_root_chord 1 := by
    funext t; simp only [out_verticaltail_mass, fh, fv]; ring
  rw [e] at h2
  have := h2.unique (h1.const_mul 2)
  exact hJ (by linarith)

example : J_verticaltail_mass__verticaltail_span (2) (1) (2) (1) (1) (1) (2) (2) (1) (2) (2) (1)
    (2) (2) (2) (1) ≠ 0 := by
  simp only [J_verticaltail_mass__verticaltail_span, dfv_dspanvtail, fh, fv, temp_2]
  first | positivity | (norm_num; done) | (norm_num; positivity)

/-- The entry for `verticaltail_mass` by `verticaltail_taper_ratio` leaves out the factor `verticaltail_mass_scaler`: where it is not zero it cannot be the
derivative both for `verticaltail_mass_scaler = 1` and for `verticaltail_mass_scaler = 2`. -/
theorem J_verticaltail_mass__verticaltail_taper_ratio_violated (verticaltail_taper_ratio
    verticaltail_span design_gross_mass horizontaltail_mass_coefficient fuselage_length
    horizontaltail_span landinggear_tail_hook_mass_scaler horizontaltail_taper_ratio
    verticaltail_mass_coefficient wing_span min_dive_vel
    horizontaltail_vertical_tail_mount_location verticaltail_area verticaltail_moment_arm
    verticaltail_thickness_to_chord verticaltail_root_chord : ℝ) (hJ :
    J_verticaltail_mass__verticaltail_taper_ratio verticaltail_taper_ratio verticaltail_span
    design_gross_mass horizontaltail_mass_coefficient fuselage_length horizontaltail_span
    landinggear_tail_hook_mass_scaler horizontaltail_taper_ratio verticaltail_mass_coefficient
    wing_span min_dive_vel horizontaltail_vertical_tail_mount_location verticaltail_area
    verticaltail_moment_arm verticaltail_thickness_to_chord verticaltail_root_chord ≠ 0) :
    ¬ (HasDerivAt (fun t => out_verticaltail_mass t verticaltail_span design_gross_mass
      horizontaltail_mass_coefficient fuselage_length horizontaltail_span
      landinggear_tail_hook_mass_scaler horizontaltail_taper_ratio verticaltail_mass_coefficient
      wing_span min_dive_vel horizontaltail_vertical_tail_mount_location verticaltail_area
      verticaltail_moment_arm verticaltail_thickness_to_chord verticaltail_root_chord 1)
      (J_verticaltail_mass__verticaltail_taper_ratio verticaltail_taper_ratio verticaltail_span
      design_gross_mass horizontaltail_mass_coefficient fuselage_length horizontaltail_span
      landinggear_tail_hook_mass_scaler horizontaltail_taper_ratio verticaltail_mass_coefficient
      wing_span min_dive_vel horizontaltail_vertical_tail_mount_location verticaltail_area
      verticaltail_moment_arm verticaltail_thickness_to_chord verticaltail_root_chord)
      verticaltail_taper_ratio ∧ HasDerivAt (fun t => out_verticaltail_mass t verticaltail_span
      design_gross_mass horizontaltail_mass_coefficient fuselage_length horizontaltail_span
      landinggear_tail_hook_mass_scaler horizontaltail_taper_ratio verticaltail_mass_coefficient
      wing_span min_dive_vel horizontaltail_vertical_tail_mount_location verticaltail_area
      verticaltail_moment_arm verticaltail_thickness_to_chord verticaltail_root_chord 2)
      (J_verticaltail_mass__verticaltail_taper_ratio verticaltail_taper_ratio verticaltail_span
      design_gross_mass horizontaltail_mass_coefficient fuselage_length horizontaltail_span
      landinggear_tail_hook_mass_scaler horizontaltail_taper_ratio verticaltail_mass_coefficient
      wing_span min_dive_vel horizontaltail_vertical_tail_mount_location verticaltail_area
      verticaltail_moment_arm verticaltail_thickness_to_chord verticaltail_root_chord)
      verticaltail_taper_ratio) := by
  rintro ⟨h1, h2⟩
  have e : (fun t => out_verticaltail_mass t verticaltail_span design_gross_mass
      horizontaltail_mass_coefficient fuselage_length horizontaltail_span
      landinggear_tail_hook_mass_scaler horizontaltail_taper_ratio verticaltail_mass_coefficient
      wing_span min_dive_vel horizontaltail_vertical_tail_mount_location verticaltail_area
      verticaltail_moment_arm verticaltail_thickness_to_chord verticaltail_root_chord 2) = fun t
      => 2 * out_verticaltail_mass t verticaltail_span design_gross_mass
      horizontaltail_mass_coefficient fuselage_length horizontaltail_span
      landinggear_tail_hook_mass_scaler horizontaltail_taper_ratio verticaltail_mass_coefficient
      wing_span min_dive_vel horizontaltail_vertical_tail_mount_location verticaltail_area
      verticaltail_moment_arm verticaltail_thickness_to_chord verticaltail_root_chord 1 := by
    funext t; simp only [out_verticaltail_mass, fh, fv]; ring
  rw [e] at h2
  have := h2.unique (h1.const_mul 2)
  exact hJ (by linarith)

example : J_verticaltail_mass__verticaltail_taper_ratio (2) (1) (2) (1) (1) (1) (2) (2) (1) (2)
    (2) (1) (2) (2) (2) (1) ≠ 0 := by
  simp only [J_verticaltail_mass__verticaltail_taper_ratio, dfv_dtaperratiovtail, fh, fv, temp_2]
  first | positivity | (norm_num; done) | (norm_num; positivity)

/-- The entry for `verticaltail_mass` by `verticaltail_thickness_to_chord` leaves out the factor `verticaltail_mass_scaler`: where it is not zero it cannot be the
derivative both for `verticaltail_mass_scaler = 1` and for `verticaltail_mass_scaler = 2`. -/
theorem J_verticaltail_mass__verticaltail_thickness_to_chord_violated (verticaltail_taper_ratio
    verticaltail_span design_gross_mass horizontaltail_mass_coefficient fuselage_length
    horizontaltail_span landinggear_tail_hook_mass_scaler horizontaltail_taper_ratio
    verticaltail_mass_coefficient wing_span min_dive_vel
    horizontaltail_vertical_tail_mount_location verticaltail_area verticaltail_moment_arm
    verticaltail_thickness_to_chord verticaltail_root_chord : ℝ) (hJ :
    J_verticaltail_mass__verticaltail_thickness_to_chord verticaltail_taper_ratio
    verticaltail_span design_gross_mass horizontaltail_mass_coefficient fuselage_length
    horizontaltail_span landinggear_tail_hook_mass_scaler horizontaltail_taper_ratio
    verticaltail_mass_coefficient wing_span min_dive_vel
    horizontaltail_vertical_tail_mount_location verticaltail_area verticaltail_moment_arm
    verticaltail_thickness_to_chord verticaltail_root_chord ≠ 0) :
    ¬ (HasDerivAt (fun t => out_verticaltail_mass verticaltail_taper_ratio verticaltail_span
      design_gross_mass horizontaltail_mass_coefficient fuselage_length horizontaltail_span
      landinggear_tail_hook_mass_scaler horizontaltail_taper_ratio verticaltail_mass_coefficient
      wing_span min_dive_vel horizontaltail_vertical_tail_mount_location verticaltail_area
      verticaltail_moment_arm t verticaltail_root_chord 1)
      (J_verticaltail_mass__verticaltail_thickness_to_chord verticaltail_taper_ratio
      verticaltail_span design_gross_mass horizontaltail_mass_coefficient fuselage_length
      horizontaltail_span landinggear_tail_hook_mass_scaler horizontaltail_taper_ratio
      verticaltail_mass_coefficient wing_span min_dive_vel
      horizontaltail_vertical_tail_mount_location verticaltail_area verticaltail_moment_arm
      verticaltail_thickness_to_chord verticaltail_root_chord) verticaltail_thickness_to_chord ∧
      HasDerivAt (fun t => out_verticaltail_mass verticaltail_taper_ratio verticaltail_span
      design_gross_mass horizontaltail_mass_coefficient fuselage_length horizontaltail_span
      landinggear_tail_hook_mass_scaler horizontaltail_taper_ratio verticaltail_mass_coefficient
      wing_span min_dive_vel horizontaltail_vertical_tail_mount_location verticaltail_area
      verticaltail_moment_arm t verticaltail_root_chord 2)
      (J_verticaltail_mass__verticaltail_thickness_to_chord verticaltail_taper_ratio
      verticaltail_span design_gross_mass horizontaltail_mass_coefficient fuselage_length
      horizontaltail_span landinggear_tail_hook_mass_scaler horizontaltail_taper_ratio
      verticaltail_mass_coefficient wing_span min_dive_vel
      horizontaltail_vertical_tail_mount_location verticaltail_area verticaltail_moment_arm
      verticaltail_thickness_to_chord verticaltail_root_chord) verticaltail_thickness_to_chord) :=
      by
  rintro ⟨h1, h2⟩
  have e : (fun t => out_verticaltail_mass verticaltail_taper_ratio verticaltail_span
      design_gross_mass horizontaltail_mass_coefficient fuselage_length horizontaltail_span
      landinggear_tail_hook_mass_scaler horizontaltail_taper_ratio verticaltail_mass_coefficient
      wing_span min_dive_vel horizontaltail_vertical_tail_mount_location verticaltail_area
      verticaltail_moment_arm t verticaltail_root_chord 2) = fun t => 2 * out_verticaltail_mass
      verticaltail_taper_ratio verticaltail_span design_gross_mass horizontaltail_mass_coefficient
      fuselage_length horizontaltail_span landinggear_tail_hook_mass_scaler
      horizontaltail_taper_ratio verticaltail_mass_coefficient wing_span min_dive_vel
      horizontaltail_vertical_tail_mount_location verticaltail_area verticaltail_moment_arm t
      verticaltail_root_chord 1 := by
    funext t; simp only [out_verticaltail_mass, fh, fv]; ring
  rw [e] at h2
  have := h2.unique (h1.const_mul 2)
  exact hJ (by linarith)

example : J_verticaltail_mass__verticaltail_thickness_to_chord (2) (1) (2) (1) (1) (1) (2) (2) (1)
    (2) (2) (1) (2) (2) (2) (1) ≠ 0 := by
  simp only [J_verticaltail_mass__verticaltail_thickness_to_chord, fh, fv]
  first | positivity | (norm_num; done) | (norm_num; positivity)

/-- The entry for `verticaltail_mass` by `wing_span` leaves out the factor `verticaltail_mass_scaler`: where it is not zero it cannot be the
derivative both for `verticaltail_mass_scaler = 1` and for `verticaltail_mass_scaler = 2`. -/
theorem J_verticaltail_mass__wing_span_violated (verticaltail_taper_ratio verticaltail_span
    design_gross_mass horizontaltail_mass_coefficient fuselage_length horizontaltail_span
    landinggear_tail_hook_mass_scaler horizontaltail_taper_ratio verticaltail_mass_coefficient
    wing_span min_dive_vel horizontaltail_vertical_tail_mount_location verticaltail_area
    verticaltail_moment_arm verticaltail_thickness_to_chord verticaltail_root_chord : ℝ) (hJ :
    J_verticaltail_mass__wing_span verticaltail_taper_ratio verticaltail_span design_gross_mass
    horizontaltail_mass_coefficient fuselage_length horizontaltail_span
    landinggear_tail_hook_mass_scaler horizontaltail_taper_ratio verticaltail_mass_coefficient
    wing_span min_dive_vel horizontaltail_vertical_tail_mount_location verticaltail_area
    verticaltail_moment_arm verticaltail_thickness_to_chord verticaltail_root_chord ≠ 0) :
    ¬ (HasDerivAt (fun t => out_verticaltail_mass verticaltail_taper_ratio verticaltail_span
      design_gross_mass horizontaltail_mass_coefficient fuselage_length horizontaltail_span
      landinggear_tail_hook_mass_scaler horizontaltail_taper_ratio verticaltail_mass_coefficient t
      min_dive_vel horizontaltail_vertical_tail_mount_location verticaltail_area
      verticaltail_moment_arm verticaltail_thickness_to_chord verticaltail_root_chord 1)
      (J_verticaltail_mass__wing_span verticaltail_taper_ratio verticaltail_span design_gross_mass
      horizontaltail_mass_coefficient fuselage_length horizontaltail_span
      landinggear_tail_hook_mass_scaler horizontaltail_taper_ratio verticaltail_mass_coefficient
      wing_span min_dive_vel horizontaltail_vertical_tail_mount_location verticaltail_area
      verticaltail_moment_arm verticaltail_thickness_to_chord verticaltail_root_chord) wing_span ∧
      HasDerivAt (fun t => out_verticaltail_mass verticaltail_taper_ratio verticaltail_span
      design_gross_mass horizontaltail_mass_coefficient fuselage_length horizontaltail_span
      landinggear_tail_hook_mass_scaler horizontaltail_taper_ratio verticaltail_mass_coefficient t
      min_dive_vel horizontaltail_vertical_tail_mount_location verticaltail_area
      verticaltail_moment_arm verticaltail_thickness_to_chord verticaltail_root_chord 2)
      (J_verticaltail_mass__wing_span verticaltail_taper_ratio verticaltail_span design_gross_mass
      horizontaltail_mass_coefficient fuselage_length horizontaltail_span
      landinggear_tail_hook_mass_scaler horizontaltail_taper_ratio verticaltail_mass_coefficient
      wing_span min_dive_vel horizontaltail_vertical_tail_mount_location verticaltail_area
      verticaltail_moment_arm verticaltail_thickness_to_chord verticaltail_root_chord) wing_span)
      := by
  rintro ⟨h1, h2⟩
  have e : (fun t => out_verticaltail_mass verticaltail_taper_ratio verticaltail_span
      design_gross_mass horizontaltail_mass_coefficient fuselage_length horizontaltail_span
      landinggear_tail_hook_mass_scaler horizontaltail_taper_ratio verticaltail_mass_coefficient t
      min_dive_vel horizontaltail_vertical_tail_mount_location verticaltail_area
      verticaltail_moment_arm verticaltail_thickness_to_chord verticaltail_root_chord 2) = fun t
      => 2 * out_verticaltail_mass verticaltail_taper_ratio verticaltail_span design_gross_mass
      horizontaltail_mass_coefficient fuselage_length horizontaltail_span
      landinggear_tail_hook_mass_scaler horizontaltail_taper_ratio verticaltail_mass_coefficient t
      min_dive_vel horizontaltail_vertical_tail_mount_location verticaltail_area
      verticaltail_moment_arm verticaltail_thickness_to_chord verticaltail_root_chord 1 := by
    funext t; simp only [out_verticaltail_mass, fh, fv]; ring
  rw [e] at h2
  have := h2.unique (h1.const_mul 2)
  exact hJ (by linarith)

example : J_verticaltail_mass__wing_span (2) (1) (2) (1) (1) (1) (2) (2) (1) (2) (2) (1) (2) (2)
    (2) (1) ≠ 0 := by
  simp only [J_verticaltail_mass__wing_span, dfv_dwingspan, fh, fv, temp_2]
  first | positivity | (norm_num; done) | (norm_num; positivity)

end Verif.Comp.MassGaspBasedFixed.VerticalTailMass

