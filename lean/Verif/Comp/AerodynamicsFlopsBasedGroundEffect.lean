import Verif.Lemmas.CompDeriv

/-! # Partial derivatives of the components of `aviary/subsystems/aerodynamics/flops_based/ground_effect.py`

One node of a vector component is modelled over the real numbers.  Each option that selects a
branch is fixed, one namespace per choice.  `out_x` is the output `x`, `J_x__y` the entry that
`compute_partials` (or `declare_partials` with `val`) assigns, `d_x__y` the proof that the entry is
the derivative.  Inputs an output does not take as argument have no influence on it.

* `GroundEffect`: not proved: `drag_coefficient` by `mission_altitude`, `drag_coefficient` by
  `wing_aspect_ratio`, `drag_coefficient` by `wing_height`, `drag_coefficient` by `wing_span`,
  `lift_coefficient` by `mission_altitude`, `lift_coefficient` by `wing_aspect_ratio`,
  `lift_coefficient` by `wing_height`, `lift_coefficient` by `wing_span` -/

set_option linter.all false

namespace Verif.Comp.AerodynamicsFlopsBasedGroundEffect.GroundEffect
open Real

/-- aviary/subsystems/aerodynamics/flops_based/ground_effect.py:152 -/
noncomputable abbrev ground_effect_state (ground_altitude mission_altitude wing_height wing_span : ℝ) : ℝ :=
  ((mission_altitude - ground_altitude) + wing_height) / wing_span

/-- aviary/subsystems/aerodynamics/flops_based/ground_effect.py:156 -/
noncomputable abbrev height_factor (ground_altitude mission_altitude wing_height wing_span : ℝ) : ℝ :=
  if 1 < (ground_effect_state ground_altitude mission_altitude wing_height wing_span) then (10 *
    ((11 / 10) - (ground_effect_state ground_altitude mission_altitude wing_height wing_span)))
    else 1

/-- aviary/subsystems/aerodynamics/flops_based/ground_effect.py:158 -/
noncomputable abbrev aspect_ratio_term (wing_aspect_ratio : ℝ) : ℝ :=
  ((6 + wing_aspect_ratio) ^ 2) / (36 + wing_aspect_ratio)

/-- aviary/subsystems/aerodynamics/flops_based/ground_effect.py:159 -/
noncomputable abbrev ground_effect_term0 (ground_altitude mission_altitude wing_aspect_ratio wing_height wing_span : ℝ) : ℝ :=
  (32 * (((ground_effect_state ground_altitude mission_altitude wing_height wing_span) *
    (aspect_ratio_term wing_aspect_ratio)) ^ 2)) + 1

/-- aviary/subsystems/aerodynamics/flops_based/ground_effect.py:161 -/
noncomputable abbrev lift_coeff_factor_denom (ground_altitude mission_altitude wing_aspect_ratio wing_height wing_span : ℝ) : ℝ :=
  ((ground_effect_term0 ground_altitude mission_altitude wing_aspect_ratio wing_height
    wing_span) - (1 / 2)) + (((4 * (ground_effect_state ground_altitude mission_altitude
    wing_height wing_span)) * (aspect_ratio_term wing_aspect_ratio)) * (sqrt
    (ground_effect_term0 ground_altitude mission_altitude wing_aspect_ratio wing_height
    wing_span)))

/-- aviary/subsystems/aerodynamics/flops_based/ground_effect.py:167 -/
noncomputable abbrev lift_coeff_factor (ground_altitude mission_altitude wing_aspect_ratio wing_height wing_span : ℝ) : ℝ :=
  1 + ((height_factor ground_altitude mission_altitude wing_height wing_span) /
    (lift_coeff_factor_denom ground_altitude mission_altitude wing_aspect_ratio wing_height
    wing_span))

/-- aviary/subsystems/aerodynamics/flops_based/ground_effect.py:169 -/
noncomputable abbrev lift_coefficient (ground_altitude mission_altitude base_lift_coefficient wing_aspect_ratio wing_height wing_span : ℝ) : ℝ :=
  base_lift_coefficient * (lift_coeff_factor ground_altitude mission_altitude wing_aspect_ratio
    wing_height wing_span)

/-- aviary/subsystems/aerodynamics/flops_based/ground_effect.py:171 -/
noncomputable abbrev combined_angle (vehicle_angle_of_attack mission_flight_path_angle : ℝ) : ℝ :=
  vehicle_angle_of_attack + mission_flight_path_angle

/-- aviary/subsystems/aerodynamics/flops_based/ground_effect.py:172 -/
noncomputable abbrev ground_effect_term1 (ground_altitude mission_altitude wing_height wing_span : ℝ) : ℝ :=
  1 + (32 * ((ground_effect_state ground_altitude mission_altitude wing_height wing_span) ^ 2))

/-- aviary/subsystems/aerodynamics/flops_based/ground_effect.py:174 -/
noncomputable abbrev drag_coeff_factor_denom (ground_altitude mission_altitude wing_height wing_span : ℝ) : ℝ :=
  ((4 * (ground_effect_state ground_altitude mission_altitude wing_height wing_span)) * (sqrt
    (ground_effect_term1 ground_altitude mission_altitude wing_height wing_span))) +
    (ground_effect_term1 ground_altitude mission_altitude wing_height wing_span)

/-- aviary/subsystems/aerodynamics/flops_based/ground_effect.py:178 -/
noncomputable abbrev drag_coeff_factor (ground_altitude mission_altitude wing_height wing_span : ℝ) : ℝ :=
  1 - ((height_factor ground_altitude mission_altitude wing_height wing_span) /
    (drag_coeff_factor_denom ground_altitude mission_altitude wing_height wing_span))

/-- aviary/subsystems/aerodynamics/flops_based/ground_effect.py:180 -/
noncomputable abbrev drag_coefficient (ground_altitude vehicle_angle_of_attack mission_altitude mission_flight_path_angle minimum_drag_coefficient base_lift_coefficient base_drag_coefficient wing_aspect_ratio wing_height wing_span : ℝ) : ℝ :=
  (minimum_drag_coefficient + (((lift_coeff_factor ground_altitude mission_altitude
    wing_aspect_ratio wing_height wing_span) * (drag_coeff_factor ground_altitude
    mission_altitude wing_height wing_span)) * (base_drag_coefficient -
    minimum_drag_coefficient))) + (((combined_angle vehicle_angle_of_attack
    mission_flight_path_angle) * base_lift_coefficient) * ((lift_coeff_factor ground_altitude
    mission_altitude wing_aspect_ratio wing_height wing_span) - 1))

/-- aviary/subsystems/aerodynamics/flops_based/ground_effect.py:190 -/
noncomputable abbrev drag_coefficient_2 (ground_altitude vehicle_angle_of_attack mission_altitude mission_flight_path_angle minimum_drag_coefficient base_lift_coefficient base_drag_coefficient wing_aspect_ratio wing_height wing_span : ℝ) : ℝ :=
  if (11 / 10) < (ground_effect_state ground_altitude mission_altitude wing_height wing_span)
    then base_drag_coefficient else (drag_coefficient ground_altitude vehicle_angle_of_attack
    mission_altitude mission_flight_path_angle minimum_drag_coefficient base_lift_coefficient
    base_drag_coefficient wing_aspect_ratio wing_height wing_span)

/-- aviary/subsystems/aerodynamics/flops_based/ground_effect.py:191 -/
noncomputable abbrev lift_coefficient_2 (ground_altitude mission_altitude base_lift_coefficient wing_aspect_ratio wing_height wing_span : ℝ) : ℝ :=
  if (11 / 10) < (ground_effect_state ground_altitude mission_altitude wing_height wing_span)
    then base_lift_coefficient else (lift_coefficient ground_altitude mission_altitude
    base_lift_coefficient wing_aspect_ratio wing_height wing_span)

/-- aviary/subsystems/aerodynamics/flops_based/ground_effect.py:214 -/
noncomputable abbrev d_ges_alt (wing_span : ℝ) : ℝ := 1 / wing_span

/-- aviary/subsystems/aerodynamics/flops_based/ground_effect.py:221 -/
noncomputable abbrev d_hf_alt (ground_altitude mission_altitude wing_height wing_span : ℝ) : ℝ :=
  if 1 < (ground_effect_state ground_altitude mission_altitude wing_height wing_span) then
    ((-10) / wing_span) else 0

/-- aviary/subsystems/aerodynamics/flops_based/ground_effect.py:226 -/
noncomputable abbrev d_get0_alt (ground_altitude mission_altitude wing_aspect_ratio wing_height wing_span : ℝ) : ℝ :=
  ((64 * (ground_effect_state ground_altitude mission_altitude wing_height wing_span)) *
    ((aspect_ratio_term wing_aspect_ratio) ^ 2)) * (d_ges_alt wing_span)

/-- aviary/subsystems/aerodynamics/flops_based/ground_effect.py:228 -/
noncomputable abbrev sqrt_get0 (ground_altitude mission_altitude wing_aspect_ratio wing_height wing_span : ℝ) : ℝ :=
  sqrt (ground_effect_term0 ground_altitude mission_altitude wing_aspect_ratio wing_height
    wing_span)

/-- aviary/subsystems/aerodynamics/flops_based/ground_effect.py:230 -/
noncomputable abbrev lift_coeff_factor_denom_2 (ground_altitude mission_altitude wing_aspect_ratio wing_height wing_span : ℝ) : ℝ :=
  ((ground_effect_term0 ground_altitude mission_altitude wing_aspect_ratio wing_height
    wing_span) - (1 / 2)) + (((4 * (ground_effect_state ground_altitude mission_altitude
    wing_height wing_span)) * (aspect_ratio_term wing_aspect_ratio)) * (sqrt_get0
    ground_altitude mission_altitude wing_aspect_ratio wing_height wing_span))

/-- aviary/subsystems/aerodynamics/flops_based/ground_effect.py:234 -/
noncomputable abbrev d_lcfd_alt (ground_altitude mission_altitude wing_aspect_ratio wing_height wing_span : ℝ) : ℝ :=
  (d_get0_alt ground_altitude mission_altitude wing_aspect_ratio wing_height wing_span) + ((4 *
    (aspect_ratio_term wing_aspect_ratio)) * (((d_ges_alt wing_span) * (sqrt_get0
    ground_altitude mission_altitude wing_aspect_ratio wing_height wing_span)) +
    (((ground_effect_state ground_altitude mission_altitude wing_height wing_span) * ((1 / 2) /
    (sqrt_get0 ground_altitude mission_altitude wing_aspect_ratio wing_height wing_span))) *
    (d_get0_alt ground_altitude mission_altitude wing_aspect_ratio wing_height wing_span))))

/-- aviary/subsystems/aerodynamics/flops_based/ground_effect.py:238 -/
noncomputable abbrev lift_coeff_factor_2 (ground_altitude mission_altitude wing_aspect_ratio wing_height wing_span : ℝ) : ℝ :=
  1 + ((height_factor ground_altitude mission_altitude wing_height wing_span) /
    (lift_coeff_factor_denom_2 ground_altitude mission_altitude wing_aspect_ratio wing_height
    wing_span))

/-- aviary/subsystems/aerodynamics/flops_based/ground_effect.py:240 -/
noncomputable abbrev d_lcf_alt (ground_altitude mission_altitude wing_aspect_ratio wing_height wing_span : ℝ) : ℝ :=
  (((d_hf_alt ground_altitude mission_altitude wing_height wing_span) *
    (lift_coeff_factor_denom_2 ground_altitude mission_altitude wing_aspect_ratio wing_height
    wing_span)) - ((height_factor ground_altitude mission_altitude wing_height wing_span) *
    (d_lcfd_alt ground_altitude mission_altitude wing_aspect_ratio wing_height wing_span))) /
    ((lift_coeff_factor_denom_2 ground_altitude mission_altitude wing_aspect_ratio wing_height
    wing_span) ^ 2)

/-- aviary/subsystems/aerodynamics/flops_based/ground_effect.py:250 -/
noncomputable abbrev f (wing_aspect_ratio : ℝ) : ℝ := (6 + wing_aspect_ratio) ^ 2

/-- aviary/subsystems/aerodynamics/flops_based/ground_effect.py:251 -/
noncomputable abbrev d_f (wing_aspect_ratio : ℝ) : ℝ := 2 * (6 + wing_aspect_ratio)

/-- aviary/subsystems/aerodynamics/flops_based/ground_effect.py:252 -/
noncomputable abbrev g (wing_aspect_ratio : ℝ) : ℝ := 36 + wing_aspect_ratio

/-- aviary/subsystems/aerodynamics/flops_based/ground_effect.py:255 -/
noncomputable abbrev d_art_ar (wing_aspect_ratio : ℝ) : ℝ :=
  (((d_f wing_aspect_ratio) * (g wing_aspect_ratio)) - (f wing_aspect_ratio)) / ((g
    wing_aspect_ratio) ^ 2)

/-- aviary/subsystems/aerodynamics/flops_based/ground_effect.py:257 -/
noncomputable abbrev d_get0_ar (ground_altitude mission_altitude wing_aspect_ratio wing_height wing_span : ℝ) : ℝ :=
  (64 * (((ground_effect_state ground_altitude mission_altitude wing_height wing_span) ^ 2) *
    (aspect_ratio_term wing_aspect_ratio))) * (d_art_ar wing_aspect_ratio)

/-- aviary/subsystems/aerodynamics/flops_based/ground_effect.py:259 -/
noncomputable abbrev d_lcfd_ar (ground_altitude mission_altitude wing_aspect_ratio wing_height wing_span : ℝ) : ℝ :=
  (d_get0_ar ground_altitude mission_altitude wing_aspect_ratio wing_height wing_span) + ((4 *
    (ground_effect_state ground_altitude mission_altitude wing_height wing_span)) * (((d_art_ar
    wing_aspect_ratio) * (sqrt_get0 ground_altitude mission_altitude wing_aspect_ratio
    wing_height wing_span)) + ((((aspect_ratio_term wing_aspect_ratio) * (1 / 2)) / (sqrt_get0
    ground_altitude mission_altitude wing_aspect_ratio wing_height wing_span)) * (d_get0_ar
    ground_altitude mission_altitude wing_aspect_ratio wing_height wing_span))))

/-- aviary/subsystems/aerodynamics/flops_based/ground_effect.py:268 -/
noncomputable abbrev d_lcf_ar (ground_altitude mission_altitude wing_aspect_ratio wing_height wing_span : ℝ) : ℝ :=
  ((-(height_factor ground_altitude mission_altitude wing_height wing_span)) * (d_lcfd_ar
    ground_altitude mission_altitude wing_aspect_ratio wing_height wing_span)) /
    ((lift_coeff_factor_denom_2 ground_altitude mission_altitude wing_aspect_ratio wing_height
    wing_span) ^ 2)

/-- aviary/subsystems/aerodynamics/flops_based/ground_effect.py:276 -/
noncomputable abbrev d_ges_b (ground_altitude mission_altitude wing_height wing_span : ℝ) : ℝ :=
  (-((mission_altitude - ground_altitude) + wing_height)) / (wing_span ^ 2)

/-- aviary/subsystems/aerodynamics/flops_based/ground_effect.py:279 -/
noncomputable abbrev d_hf_b (ground_altitude mission_altitude wing_height wing_span : ℝ) : ℝ :=
  if 1 < (ground_effect_state ground_altitude mission_altitude wing_height wing_span) then
    ((-10) * (d_ges_b ground_altitude mission_altitude wing_height wing_span)) else 0

/-- aviary/subsystems/aerodynamics/flops_based/ground_effect.py:281 -/
noncomputable abbrev d_get0_b (ground_altitude mission_altitude wing_aspect_ratio wing_height wing_span : ℝ) : ℝ :=
  (64 * ((ground_effect_state ground_altitude mission_altitude wing_height wing_span) *
    ((aspect_ratio_term wing_aspect_ratio) ^ 2))) * (d_ges_b ground_altitude mission_altitude
    wing_height wing_span)

/-- aviary/subsystems/aerodynamics/flops_based/ground_effect.py:283 -/
noncomputable abbrev d_lcfd_b (ground_altitude mission_altitude wing_aspect_ratio wing_height wing_span : ℝ) : ℝ :=
  (d_get0_b ground_altitude mission_altitude wing_aspect_ratio wing_height wing_span) + ((4 *
    (aspect_ratio_term wing_aspect_ratio)) * (((d_ges_b ground_altitude mission_altitude
    wing_height wing_span) * (sqrt_get0 ground_altitude mission_altitude wing_aspect_ratio
    wing_height wing_span)) + ((((ground_effect_state ground_altitude mission_altitude
    wing_height wing_span) * (1 / 2)) / (sqrt_get0 ground_altitude mission_altitude
    wing_aspect_ratio wing_height wing_span)) * (d_get0_b ground_altitude mission_altitude
    wing_aspect_ratio wing_height wing_span))))

/-- aviary/subsystems/aerodynamics/flops_based/ground_effect.py:292 -/
noncomputable abbrev d_lcf_b (ground_altitude mission_altitude wing_aspect_ratio wing_height wing_span : ℝ) : ℝ :=
  (((d_hf_b ground_altitude mission_altitude wing_height wing_span) * (lift_coeff_factor_denom_2
    ground_altitude mission_altitude wing_aspect_ratio wing_height wing_span)) - ((height_factor
    ground_altitude mission_altitude wing_height wing_span) * (d_lcfd_b ground_altitude
    mission_altitude wing_aspect_ratio wing_height wing_span))) / ((lift_coeff_factor_denom_2
    ground_altitude mission_altitude wing_aspect_ratio wing_height wing_span) ^ 2)

/-- aviary/subsystems/aerodynamics/flops_based/ground_effect.py:304 -/
noncomputable abbrev sqrt_get1 (ground_altitude mission_altitude wing_height wing_span : ℝ) : ℝ :=
  sqrt (ground_effect_term1 ground_altitude mission_altitude wing_height wing_span)

/-- aviary/subsystems/aerodynamics/flops_based/ground_effect.py:306 -/
noncomputable abbrev drag_coeff_factor_denom_2 (ground_altitude mission_altitude wing_height wing_span : ℝ) : ℝ :=
  ((4 * (ground_effect_state ground_altitude mission_altitude wing_height wing_span)) *
    (sqrt_get1 ground_altitude mission_altitude wing_height wing_span)) + (ground_effect_term1
    ground_altitude mission_altitude wing_height wing_span)

/-- aviary/subsystems/aerodynamics/flops_based/ground_effect.py:308 -/
noncomputable abbrev drag_coeff_factor_2 (ground_altitude mission_altitude wing_height wing_span : ℝ) : ℝ :=
  1 - ((height_factor ground_altitude mission_altitude wing_height wing_span) /
    (drag_coeff_factor_denom_2 ground_altitude mission_altitude wing_height wing_span))

/-- aviary/subsystems/aerodynamics/flops_based/ground_effect.py:310 -/
noncomputable abbrev d_dc_aoa (ground_altitude mission_altitude base_lift_coefficient wing_aspect_ratio wing_height wing_span : ℝ) : ℝ :=
  base_lift_coefficient * ((lift_coeff_factor_2 ground_altitude mission_altitude
    wing_aspect_ratio wing_height wing_span) - 1)

/-- aviary/subsystems/aerodynamics/flops_based/ground_effect.py:318 -/
noncomputable abbrev d_dc_fpa (ground_altitude mission_altitude base_lift_coefficient wing_aspect_ratio wing_height wing_span : ℝ) : ℝ :=
  base_lift_coefficient * ((lift_coeff_factor_2 ground_altitude mission_altitude
    wing_aspect_ratio wing_height wing_span) - 1)

/-- aviary/subsystems/aerodynamics/flops_based/ground_effect.py:324 -/
noncomputable abbrev d_get1_alt (ground_altitude mission_altitude wing_height wing_span : ℝ) : ℝ :=
  (64 * (ground_effect_state ground_altitude mission_altitude wing_height wing_span)) *
    (d_ges_alt wing_span)

/-- aviary/subsystems/aerodynamics/flops_based/ground_effect.py:329 -/
noncomputable abbrev d_g (ground_altitude mission_altitude wing_height wing_span : ℝ) : ℝ :=
  ((1 / 2) * (d_get1_alt ground_altitude mission_altitude wing_height wing_span)) / (sqrt_get1
    ground_altitude mission_altitude wing_height wing_span)

/-- aviary/subsystems/aerodynamics/flops_based/ground_effect.py:331 -/
noncomputable abbrev d_dcfd_alt (ground_altitude mission_altitude wing_height wing_span : ℝ) : ℝ :=
  (4 * (((d_ges_alt wing_span) * (sqrt_get1 ground_altitude mission_altitude wing_height
    wing_span)) + ((ground_effect_state ground_altitude mission_altitude wing_height wing_span)
    * (d_g ground_altitude mission_altitude wing_height wing_span)))) + (d_get1_alt
    ground_altitude mission_altitude wing_height wing_span)

/-- aviary/subsystems/aerodynamics/flops_based/ground_effect.py:338 -/
noncomputable abbrev d_dcf_alt (ground_altitude mission_altitude wing_height wing_span : ℝ) : ℝ :=
  (-(((d_hf_alt ground_altitude mission_altitude wing_height wing_span) *
    (drag_coeff_factor_denom_2 ground_altitude mission_altitude wing_height wing_span)) -
    ((height_factor ground_altitude mission_altitude wing_height wing_span) * (d_dcfd_alt
    ground_altitude mission_altitude wing_height wing_span)))) / ((drag_coeff_factor_denom_2
    ground_altitude mission_altitude wing_height wing_span) ^ 2)

/-- aviary/subsystems/aerodynamics/flops_based/ground_effect.py:345 -/
noncomputable abbrev d_dc_alt (ground_altitude vehicle_angle_of_attack mission_altitude mission_flight_path_angle minimum_drag_coefficient base_lift_coefficient base_drag_coefficient wing_aspect_ratio wing_height wing_span : ℝ) : ℝ :=
  ((((d_lcf_alt ground_altitude mission_altitude wing_aspect_ratio wing_height wing_span) *
    (drag_coeff_factor_2 ground_altitude mission_altitude wing_height wing_span)) + ((d_dcf_alt
    ground_altitude mission_altitude wing_height wing_span) * (lift_coeff_factor_2
    ground_altitude mission_altitude wing_aspect_ratio wing_height wing_span))) *
    (base_drag_coefficient - minimum_drag_coefficient)) + (((combined_angle
    vehicle_angle_of_attack mission_flight_path_angle) * base_lift_coefficient) * (d_lcf_alt
    ground_altitude mission_altitude wing_aspect_ratio wing_height wing_span))

/-- aviary/subsystems/aerodynamics/flops_based/ground_effect.py:353 -/
noncomputable abbrev d_dc_mdc (ground_altitude mission_altitude wing_aspect_ratio wing_height wing_span : ℝ) : ℝ :=
  1 - ((lift_coeff_factor_2 ground_altitude mission_altitude wing_aspect_ratio wing_height
    wing_span) * (drag_coeff_factor_2 ground_altitude mission_altitude wing_height wing_span))

/-- aviary/subsystems/aerodynamics/flops_based/ground_effect.py:359 -/
noncomputable abbrev d_dc_blc (ground_altitude vehicle_angle_of_attack mission_altitude mission_flight_path_angle wing_aspect_ratio wing_height wing_span : ℝ) : ℝ :=
  (combined_angle vehicle_angle_of_attack mission_flight_path_angle) * ((lift_coeff_factor_2
    ground_altitude mission_altitude wing_aspect_ratio wing_height wing_span) - 1)

/-- aviary/subsystems/aerodynamics/flops_based/ground_effect.py:365 -/
noncomputable abbrev d_dc_bdc (ground_altitude mission_altitude wing_aspect_ratio wing_height wing_span : ℝ) : ℝ :=
  (lift_coeff_factor_2 ground_altitude mission_altitude wing_aspect_ratio wing_height wing_span)
    * (drag_coeff_factor_2 ground_altitude mission_altitude wing_height wing_span)

/-- aviary/subsystems/aerodynamics/flops_based/ground_effect.py:371 -/
noncomputable abbrev d_dc_ar (ground_altitude vehicle_angle_of_attack mission_altitude mission_flight_path_angle minimum_drag_coefficient base_lift_coefficient base_drag_coefficient wing_aspect_ratio wing_height wing_span : ℝ) : ℝ :=
  (((drag_coeff_factor_2 ground_altitude mission_altitude wing_height wing_span) *
    (base_drag_coefficient - minimum_drag_coefficient)) + ((combined_angle
    vehicle_angle_of_attack mission_flight_path_angle) * base_lift_coefficient)) * (d_lcf_ar
    ground_altitude mission_altitude wing_aspect_ratio wing_height wing_span)

/-- aviary/subsystems/aerodynamics/flops_based/ground_effect.py:382 -/
noncomputable abbrev d_get1_b (ground_altitude mission_altitude wing_height wing_span : ℝ) : ℝ :=
  (64 * (ground_effect_state ground_altitude mission_altitude wing_height wing_span)) * (d_ges_b
    ground_altitude mission_altitude wing_height wing_span)

/-- aviary/subsystems/aerodynamics/flops_based/ground_effect.py:387 -/
noncomputable abbrev d_g_2 (ground_altitude mission_altitude wing_height wing_span : ℝ) : ℝ :=
  ((1 / 2) * (d_get1_b ground_altitude mission_altitude wing_height wing_span)) / (sqrt_get1
    ground_altitude mission_altitude wing_height wing_span)

/-- aviary/subsystems/aerodynamics/flops_based/ground_effect.py:389 -/
noncomputable abbrev d_dcfd_b (ground_altitude mission_altitude wing_height wing_span : ℝ) : ℝ :=
  (4 * (((d_ges_b ground_altitude mission_altitude wing_height wing_span) * (sqrt_get1
    ground_altitude mission_altitude wing_height wing_span)) + ((ground_effect_state
    ground_altitude mission_altitude wing_height wing_span) * (d_g_2 ground_altitude
    mission_altitude wing_height wing_span)))) + (d_get1_b ground_altitude mission_altitude
    wing_height wing_span)

/-- aviary/subsystems/aerodynamics/flops_based/ground_effect.py:396 -/
noncomputable abbrev d_dcf_b (ground_altitude mission_altitude wing_height wing_span : ℝ) : ℝ :=
  (-(((d_hf_b ground_altitude mission_altitude wing_height wing_span) *
    (drag_coeff_factor_denom_2 ground_altitude mission_altitude wing_height wing_span)) -
    ((height_factor ground_altitude mission_altitude wing_height wing_span) * (d_dcfd_b
    ground_altitude mission_altitude wing_height wing_span)))) / ((drag_coeff_factor_denom_2
    ground_altitude mission_altitude wing_height wing_span) ^ 2)

/-- aviary/subsystems/aerodynamics/flops_based/ground_effect.py:403 -/
noncomputable abbrev d_dc_b (ground_altitude vehicle_angle_of_attack mission_altitude mission_flight_path_angle minimum_drag_coefficient base_lift_coefficient base_drag_coefficient wing_aspect_ratio wing_height wing_span : ℝ) : ℝ :=
  ((((d_lcf_b ground_altitude mission_altitude wing_aspect_ratio wing_height wing_span) *
    (drag_coeff_factor_2 ground_altitude mission_altitude wing_height wing_span)) +
    ((lift_coeff_factor_2 ground_altitude mission_altitude wing_aspect_ratio wing_height
    wing_span) * (d_dcf_b ground_altitude mission_altitude wing_height wing_span))) *
    (base_drag_coefficient - minimum_drag_coefficient)) + (((combined_angle
    vehicle_angle_of_attack mission_flight_path_angle) * base_lift_coefficient) * (d_lcf_b
    ground_altitude mission_altitude wing_aspect_ratio wing_height wing_span))

/-- Output `lift_coefficient` of `GroundEffect.compute`, aviary/subsystems/aerodynamics/flops_based/ground_effect.py:193 -/
noncomputable def out_lift_coefficient (ground_altitude mission_altitude base_lift_coefficient wing_aspect_ratio wing_height wing_span : ℝ) : ℝ :=
  lift_coefficient_2 ground_altitude mission_altitude base_lift_coefficient wing_aspect_ratio
    wing_height wing_span

/-- Output `drag_coefficient` of `GroundEffect.compute`, aviary/subsystems/aerodynamics/flops_based/ground_effect.py:194 -/
noncomputable def out_drag_coefficient (ground_altitude vehicle_angle_of_attack mission_altitude mission_flight_path_angle minimum_drag_coefficient base_lift_coefficient base_drag_coefficient wing_aspect_ratio wing_height wing_span : ℝ) : ℝ :=
  drag_coefficient_2 ground_altitude vehicle_angle_of_attack mission_altitude
    mission_flight_path_angle minimum_drag_coefficient base_lift_coefficient
    base_drag_coefficient wing_aspect_ratio wing_height wing_span

/-- Partial of `lift_coefficient` with respect to `mission_altitude` as set by `GroundEffect`, aviary/subsystems/aerodynamics/flops_based/ground_effect.py:423 -/
noncomputable def J_lift_coefficient__mission_altitude (ground_altitude mission_altitude base_lift_coefficient wing_aspect_ratio wing_height wing_span : ℝ) : ℝ :=
  if (11 / 10) < (ground_effect_state ground_altitude mission_altitude wing_height wing_span)
    then (if (11 / 10) < (ground_effect_state ground_altitude mission_altitude wing_height
    wing_span) then 0 else (base_lift_coefficient * (d_lcf_alt ground_altitude mission_altitude
    wing_aspect_ratio wing_height wing_span))) else (base_lift_coefficient * (d_lcf_alt
    ground_altitude mission_altitude wing_aspect_ratio wing_height wing_span))

/-- Partial of `lift_coefficient` with respect to `base_lift_coefficient` as set by `GroundEffect`, aviary/subsystems/aerodynamics/flops_based/ground_effect.py:424 -/
noncomputable def J_lift_coefficient__base_lift_coefficient (ground_altitude mission_altitude wing_aspect_ratio wing_height wing_span : ℝ) : ℝ :=
  if (11 / 10) < (ground_effect_state ground_altitude mission_altitude wing_height wing_span)
    then (if (11 / 10) < (ground_effect_state ground_altitude mission_altitude wing_height
    wing_span) then 1 else (lift_coeff_factor_2 ground_altitude mission_altitude
    wing_aspect_ratio wing_height wing_span)) else (lift_coeff_factor_2 ground_altitude
    mission_altitude wing_aspect_ratio wing_height wing_span)

/-- Partial of `lift_coefficient` with respect to `wing_aspect_ratio` as set by `GroundEffect`, aviary/subsystems/aerodynamics/flops_based/ground_effect.py:425 -/
noncomputable def J_lift_coefficient__wing_aspect_ratio (ground_altitude mission_altitude base_lift_coefficient wing_aspect_ratio wing_height wing_span : ℝ) : ℝ :=
  if (11 / 10) < (ground_effect_state ground_altitude mission_altitude wing_height wing_span)
    then (if (11 / 10) < (ground_effect_state ground_altitude mission_altitude wing_height
    wing_span) then 0 else (base_lift_coefficient * (d_lcf_ar ground_altitude mission_altitude
    wing_aspect_ratio wing_height wing_span))) else (base_lift_coefficient * (d_lcf_ar
    ground_altitude mission_altitude wing_aspect_ratio wing_height wing_span))

/-- Partial of `lift_coefficient` with respect to `wing_height` as set by `GroundEffect`, aviary/subsystems/aerodynamics/flops_based/ground_effect.py:426 -/
noncomputable def J_lift_coefficient__wing_height (ground_altitude mission_altitude base_lift_coefficient wing_aspect_ratio wing_height wing_span : ℝ) : ℝ :=
  if (11 / 10) < (ground_effect_state ground_altitude mission_altitude wing_height wing_span)
    then (if (11 / 10) < (ground_effect_state ground_altitude mission_altitude wing_height
    wing_span) then 0 else (base_lift_coefficient * (d_lcf_alt ground_altitude mission_altitude
    wing_aspect_ratio wing_height wing_span))) else (base_lift_coefficient * (d_lcf_alt
    ground_altitude mission_altitude wing_aspect_ratio wing_height wing_span))

/-- Partial of `lift_coefficient` with respect to `wing_span` as set by `GroundEffect`, aviary/subsystems/aerodynamics/flops_based/ground_effect.py:427 -/
noncomputable def J_lift_coefficient__wing_span (ground_altitude mission_altitude base_lift_coefficient wing_aspect_ratio wing_height wing_span : ℝ) : ℝ :=
  if (11 / 10) < (ground_effect_state ground_altitude mission_altitude wing_height wing_span)
    then (if (11 / 10) < (ground_effect_state ground_altitude mission_altitude wing_height
    wing_span) then 0 else (base_lift_coefficient * (d_lcf_b ground_altitude mission_altitude
    wing_aspect_ratio wing_height wing_span))) else (base_lift_coefficient * (d_lcf_b
    ground_altitude mission_altitude wing_aspect_ratio wing_height wing_span))

/-- Partial of `drag_coefficient` with respect to `vehicle_angle_of_attack` as set by `GroundEffect`, aviary/subsystems/aerodynamics/flops_based/ground_effect.py:420 -/
noncomputable def J_drag_coefficient__vehicle_angle_of_attack (ground_altitude mission_altitude base_lift_coefficient wing_aspect_ratio wing_height wing_span : ℝ) : ℝ :=
  if (11 / 10) < (ground_effect_state ground_altitude mission_altitude wing_height wing_span)
    then (if (11 / 10) < (ground_effect_state ground_altitude mission_altitude wing_height
    wing_span) then 0 else (d_dc_aoa ground_altitude mission_altitude base_lift_coefficient
    wing_aspect_ratio wing_height wing_span)) else (d_dc_aoa ground_altitude mission_altitude
    base_lift_coefficient wing_aspect_ratio wing_height wing_span)

/-- Partial of `drag_coefficient` with respect to `mission_flight_path_angle` as set by `GroundEffect`, aviary/subsystems/aerodynamics/flops_based/ground_effect.py:421 -/
noncomputable def J_drag_coefficient__mission_flight_path_angle (ground_altitude mission_altitude base_lift_coefficient wing_aspect_ratio wing_height wing_span : ℝ) : ℝ :=
  if (11 / 10) < (ground_effect_state ground_altitude mission_altitude wing_height wing_span)
    then (if (11 / 10) < (ground_effect_state ground_altitude mission_altitude wing_height
    wing_span) then 0 else (d_dc_fpa ground_altitude mission_altitude base_lift_coefficient
    wing_aspect_ratio wing_height wing_span)) else (d_dc_fpa ground_altitude mission_altitude
    base_lift_coefficient wing_aspect_ratio wing_height wing_span)

/-- Partial of `drag_coefficient` with respect to `mission_altitude` as set by `GroundEffect`, aviary/subsystems/aerodynamics/flops_based/ground_effect.py:413 -/
noncomputable def J_drag_coefficient__mission_altitude (ground_altitude vehicle_angle_of_attack mission_altitude mission_flight_path_angle minimum_drag_coefficient base_lift_coefficient base_drag_coefficient wing_aspect_ratio wing_height wing_span : ℝ) : ℝ :=
  if (11 / 10) < (ground_effect_state ground_altitude mission_altitude wing_height wing_span)
    then (if (11 / 10) < (ground_effect_state ground_altitude mission_altitude wing_height
    wing_span) then 0 else (d_dc_alt ground_altitude vehicle_angle_of_attack mission_altitude
    mission_flight_path_angle minimum_drag_coefficient base_lift_coefficient
    base_drag_coefficient wing_aspect_ratio wing_height wing_span)) else (d_dc_alt
    ground_altitude vehicle_angle_of_attack mission_altitude mission_flight_path_angle
    minimum_drag_coefficient base_lift_coefficient base_drag_coefficient wing_aspect_ratio
    wing_height wing_span)

/-- Partial of `drag_coefficient` with respect to `minimum_drag_coefficient` as set by `GroundEffect`, aviary/subsystems/aerodynamics/flops_based/ground_effect.py:414 -/
noncomputable def J_drag_coefficient__minimum_drag_coefficient (ground_altitude mission_altitude wing_aspect_ratio wing_height wing_span : ℝ) : ℝ :=
  if (11 / 10) < (ground_effect_state ground_altitude mission_altitude wing_height wing_span)
    then (if (11 / 10) < (ground_effect_state ground_altitude mission_altitude wing_height
    wing_span) then 0 else (d_dc_mdc ground_altitude mission_altitude wing_aspect_ratio
    wing_height wing_span)) else (d_dc_mdc ground_altitude mission_altitude wing_aspect_ratio
    wing_height wing_span)

/-- Partial of `drag_coefficient` with respect to `base_lift_coefficient` as set by `GroundEffect`, aviary/subsystems/aerodynamics/flops_based/ground_effect.py:415 -/
noncomputable def J_drag_coefficient__base_lift_coefficient (ground_altitude vehicle_angle_of_attack mission_altitude mission_flight_path_angle wing_aspect_ratio wing_height wing_span : ℝ) : ℝ :=
  if (11 / 10) < (ground_effect_state ground_altitude mission_altitude wing_height wing_span)
    then (if (11 / 10) < (ground_effect_state ground_altitude mission_altitude wing_height
    wing_span) then 0 else (d_dc_blc ground_altitude vehicle_angle_of_attack mission_altitude
    mission_flight_path_angle wing_aspect_ratio wing_height wing_span)) else (d_dc_blc
    ground_altitude vehicle_angle_of_attack mission_altitude mission_flight_path_angle
    wing_aspect_ratio wing_height wing_span)

/-- Partial of `drag_coefficient` with respect to `base_drag_coefficient` as set by `GroundEffect`, aviary/subsystems/aerodynamics/flops_based/ground_effect.py:416 -/
noncomputable def J_drag_coefficient__base_drag_coefficient (ground_altitude mission_altitude wing_aspect_ratio wing_height wing_span : ℝ) : ℝ :=
  if (11 / 10) < (ground_effect_state ground_altitude mission_altitude wing_height wing_span)
    then (if (11 / 10) < (ground_effect_state ground_altitude mission_altitude wing_height
    wing_span) then 1 else (d_dc_bdc ground_altitude mission_altitude wing_aspect_ratio
    wing_height wing_span)) else (d_dc_bdc ground_altitude mission_altitude wing_aspect_ratio
    wing_height wing_span)

/-- Partial of `drag_coefficient` with respect to `wing_aspect_ratio` as set by `GroundEffect`, aviary/subsystems/aerodynamics/flops_based/ground_effect.py:417 -/
noncomputable def J_drag_coefficient__wing_aspect_ratio (ground_altitude vehicle_angle_of_attack mission_altitude mission_flight_path_angle minimum_drag_coefficient base_lift_coefficient base_drag_coefficient wing_aspect_ratio wing_height wing_span : ℝ) : ℝ :=
  if (11 / 10) < (ground_effect_state ground_altitude mission_altitude wing_height wing_span)
    then (if (11 / 10) < (ground_effect_state ground_altitude mission_altitude wing_height
    wing_span) then 0 else (d_dc_ar ground_altitude vehicle_angle_of_attack mission_altitude
    mission_flight_path_angle minimum_drag_coefficient base_lift_coefficient
    base_drag_coefficient wing_aspect_ratio wing_height wing_span)) else (d_dc_ar
    ground_altitude vehicle_angle_of_attack mission_altitude mission_flight_path_angle
    minimum_drag_coefficient base_lift_coefficient base_drag_coefficient wing_aspect_ratio
    wing_height wing_span)

/-- Partial of `drag_coefficient` with respect to `wing_height` as set by `GroundEffect`, aviary/subsystems/aerodynamics/flops_based/ground_effect.py:418 -/
noncomputable def J_drag_coefficient__wing_height (ground_altitude vehicle_angle_of_attack mission_altitude mission_flight_path_angle minimum_drag_coefficient base_lift_coefficient base_drag_coefficient wing_aspect_ratio wing_height wing_span : ℝ) : ℝ :=
  if (11 / 10) < (ground_effect_state ground_altitude mission_altitude wing_height wing_span)
    then (if (11 / 10) < (ground_effect_state ground_altitude mission_altitude wing_height
    wing_span) then 0 else (d_dc_alt ground_altitude vehicle_angle_of_attack mission_altitude
    mission_flight_path_angle minimum_drag_coefficient base_lift_coefficient
    base_drag_coefficient wing_aspect_ratio wing_height wing_span)) else (d_dc_alt
    ground_altitude vehicle_angle_of_attack mission_altitude mission_flight_path_angle
    minimum_drag_coefficient base_lift_coefficient base_drag_coefficient wing_aspect_ratio
    wing_height wing_span)

/-- Partial of `drag_coefficient` with respect to `wing_span` as set by `GroundEffect`, aviary/subsystems/aerodynamics/flops_based/ground_effect.py:419 -/
noncomputable def J_drag_coefficient__wing_span (ground_altitude vehicle_angle_of_attack mission_altitude mission_flight_path_angle minimum_drag_coefficient base_lift_coefficient base_drag_coefficient wing_aspect_ratio wing_height wing_span : ℝ) : ℝ :=
  if (11 / 10) < (ground_effect_state ground_altitude mission_altitude wing_height wing_span)
    then (if (11 / 10) < (ground_effect_state ground_altitude mission_altitude wing_height
    wing_span) then 0 else (d_dc_b ground_altitude vehicle_angle_of_attack mission_altitude
    mission_flight_path_angle minimum_drag_coefficient base_lift_coefficient
    base_drag_coefficient wing_aspect_ratio wing_height wing_span)) else (d_dc_b ground_altitude
    vehicle_angle_of_attack mission_altitude mission_flight_path_angle minimum_drag_coefficient
    base_lift_coefficient base_drag_coefficient wing_aspect_ratio wing_height wing_span)

theorem d_lift_coefficient__base_lift_coefficient (ground_altitude mission_altitude
    base_lift_coefficient wing_aspect_ratio wing_height wing_span : ℝ) (h0 : 0 < wing_span) (h1 :
    0 < wing_aspect_ratio) (h2 : (((32 * (((((mission_altitude - ground_altitude) + wing_height) /
    wing_span) * (((6 + wing_aspect_ratio) ^ 2) / (36 + wing_aspect_ratio))) ^ 2)) + 1) - (1 / 2))
    + (((4 * (((mission_altitude - ground_altitude) + wing_height) / wing_span)) * (((6 +
    wing_aspect_ratio) ^ 2) / (36 + wing_aspect_ratio))) * (sqrt ((32 * (((((mission_altitude -
    ground_altitude) + wing_height) / wing_span) * (((6 + wing_aspect_ratio) ^ 2) / (36 +
    wing_aspect_ratio))) ^ 2)) + 1))) ≠ 0) (h3 : (((32 * (((((mission_altitude - ground_altitude)
    + wing_height) / wing_span) * (((6 + wing_aspect_ratio) ^ 2) / (36 + wing_aspect_ratio))) ^
    2)) + 1) - (1 / 2)) + (((4 * (((mission_altitude - ground_altitude) + wing_height) /
    wing_span)) * (((6 + wing_aspect_ratio) ^ 2) / (36 + wing_aspect_ratio))) * (sqrt ((32 *
    (((((mission_altitude - ground_altitude) + wing_height) / wing_span) * (((6 +
    wing_aspect_ratio) ^ 2) / (36 + wing_aspect_ratio))) ^ 2)) + 1))) ≠ 0) :
    HasDerivAt (fun t => out_lift_coefficient ground_altitude mission_altitude t wing_aspect_ratio wing_height wing_span) (J_lift_coefficient__base_lift_coefficient ground_altitude mission_altitude wing_aspect_ratio wing_height wing_span) base_lift_coefficient := by
  simp only [out_lift_coefficient, J_lift_coefficient__base_lift_coefficient, lift_coeff_factor_2, lift_coeff_factor_denom_2, sqrt_get0, lift_coefficient_2, lift_coefficient, lift_coeff_factor, lift_coeff_factor_denom, ground_effect_term0, aspect_ratio_term, height_factor, ground_effect_state, sqrt_eq_rpow]
  try split_ifs
  all_goals (apply hasDerivAt_of_eq; on_goal 1 => (repeat' comp_step))
  all_goals try comp_side
  all_goals try simp (disch := first | assumption | positivity) only [div_mul_eq_div_div, div_half, inv_half]
  all_goals try split_ifs
  all_goals try (exfalso; linarith)
  all_goals try simp only [mul_zero, zero_mul, add_zero, zero_add, sub_zero, zero_sub, mul_one, one_mul]
  all_goals try push_cast
  all_goals comp_eq

theorem d_drag_coefficient__vehicle_angle_of_attack (ground_altitude vehicle_angle_of_attack
    mission_altitude mission_flight_path_angle minimum_drag_coefficient base_lift_coefficient
    base_drag_coefficient wing_aspect_ratio wing_height wing_span : ℝ) (h0 : 0 < wing_span) (h1 :
    0 < wing_aspect_ratio) (h2 : (((32 * (((((mission_altitude - ground_altitude) + wing_height) /
    wing_span) * (((6 + wing_aspect_ratio) ^ 2) / (36 + wing_aspect_ratio))) ^ 2)) + 1) - (1 / 2))
    + (((4 * (((mission_altitude - ground_altitude) + wing_height) / wing_span)) * (((6 +
    wing_aspect_ratio) ^ 2) / (36 + wing_aspect_ratio))) * (sqrt ((32 * (((((mission_altitude -
    ground_altitude) + wing_height) / wing_span) * (((6 + wing_aspect_ratio) ^ 2) / (36 +
    wing_aspect_ratio))) ^ 2)) + 1))) ≠ 0) (h3 : (mission_altitude - ground_altitude) +
    wing_height ≠ 0) (h4 : 0 < (mission_altitude - ground_altitude) + wing_height) (h5 : (((32 *
    (((((mission_altitude - ground_altitude) + wing_height) / wing_span) * (((6 +
    wing_aspect_ratio) ^ 2) / (36 + wing_aspect_ratio))) ^ 2)) + 1) - (1 / 2)) + (((4 *
    (((mission_altitude - ground_altitude) + wing_height) / wing_span)) * (((6 +
    wing_aspect_ratio) ^ 2) / (36 + wing_aspect_ratio))) * (sqrt ((32 * (((((mission_altitude -
    ground_altitude) + wing_height) / wing_span) * (((6 + wing_aspect_ratio) ^ 2) / (36 +
    wing_aspect_ratio))) ^ 2)) + 1))) ≠ 0) :
    HasDerivAt (fun t => out_drag_coefficient ground_altitude t mission_altitude mission_flight_path_angle minimum_drag_coefficient base_lift_coefficient base_drag_coefficient wing_aspect_ratio wing_height wing_span) (J_drag_coefficient__vehicle_angle_of_attack ground_altitude mission_altitude base_lift_coefficient wing_aspect_ratio wing_height wing_span) vehicle_angle_of_attack := by
  simp only [out_drag_coefficient, J_drag_coefficient__vehicle_angle_of_attack, d_dc_aoa, lift_coeff_factor_2, lift_coeff_factor_denom_2, sqrt_get0, drag_coefficient_2, drag_coefficient, combined_angle, drag_coeff_factor, drag_coeff_factor_denom, ground_effect_term1, lift_coeff_factor, lift_coeff_factor_denom, ground_effect_term0, aspect_ratio_term, height_factor, ground_effect_state, sqrt_eq_rpow]
  try split_ifs
  all_goals (apply hasDerivAt_of_eq; on_goal 1 => (repeat' comp_step))
  all_goals try comp_side
  all_goals try simp (disch := first | assumption | positivity) only [div_mul_eq_div_div, div_half, inv_half]
  all_goals try split_ifs
  all_goals try (exfalso; linarith)
  all_goals try simp only [mul_zero, zero_mul, add_zero, zero_add, sub_zero, zero_sub, mul_one, one_mul]
  all_goals try push_cast
  all_goals comp_eq

theorem d_drag_coefficient__mission_flight_path_angle (ground_altitude vehicle_angle_of_attack
    mission_altitude mission_flight_path_angle minimum_drag_coefficient base_lift_coefficient
    base_drag_coefficient wing_aspect_ratio wing_height wing_span : ℝ) (h0 : 0 < wing_span) (h1 :
    0 < wing_aspect_ratio) (h2 : (((32 * (((((mission_altitude - ground_altitude) + wing_height) /
    wing_span) * (((6 + wing_aspect_ratio) ^ 2) / (36 + wing_aspect_ratio))) ^ 2)) + 1) - (1 / 2))
    + (((4 * (((mission_altitude - ground_altitude) + wing_height) / wing_span)) * (((6 +
    wing_aspect_ratio) ^ 2) / (36 + wing_aspect_ratio))) * (sqrt ((32 * (((((mission_altitude -
    ground_altitude) + wing_height) / wing_span) * (((6 + wing_aspect_ratio) ^ 2) / (36 +
    wing_aspect_ratio))) ^ 2)) + 1))) ≠ 0) (h3 : (mission_altitude - ground_altitude) +
    wing_height ≠ 0) (h4 : 0 < (mission_altitude - ground_altitude) + wing_height) (h5 : (((32 *
    (((((mission_altitude - ground_altitude) + wing_height) / wing_span) * (((6 +
    wing_aspect_ratio) ^ 2) / (36 + wing_aspect_ratio))) ^ 2)) + 1) - (1 / 2)) + (((4 *
    (((mission_altitude - ground_altitude) + wing_height) / wing_span)) * (((6 +
    wing_aspect_ratio) ^ 2) / (36 + wing_aspect_ratio))) * (sqrt ((32 * (((((mission_altitude -
    ground_altitude) + wing_height) / wing_span) * (((6 + wing_aspect_ratio) ^ 2) / (36 +
    wing_aspect_ratio))) ^ 2)) + 1))) ≠ 0) :
    HasDerivAt (fun t => out_drag_coefficient ground_altitude vehicle_angle_of_attack mission_altitude t minimum_drag_coefficient base_lift_coefficient base_drag_coefficient wing_aspect_ratio wing_height wing_span) (J_drag_coefficient__mission_flight_path_angle ground_altitude mission_altitude base_lift_coefficient wing_aspect_ratio wing_height wing_span) mission_flight_path_angle := by
  simp only [out_drag_coefficient, J_drag_coefficient__mission_flight_path_angle, d_dc_fpa, lift_coeff_factor_2, lift_coeff_factor_denom_2, sqrt_get0, drag_coefficient_2, drag_coefficient, combined_angle, drag_coeff_factor, drag_coeff_factor_denom, ground_effect_term1, lift_coeff_factor, lift_coeff_factor_denom, ground_effect_term0, aspect_ratio_term, height_factor, ground_effect_state, sqrt_eq_rpow]
  try split_ifs
  all_goals (apply hasDerivAt_of_eq; on_goal 1 => (repeat' comp_step))
  all_goals try comp_side
  all_goals try simp (disch := first | assumption | positivity) only [div_mul_eq_div_div, div_half, inv_half]
  all_goals try split_ifs
  all_goals try (exfalso; linarith)
  all_goals try simp only [mul_zero, zero_mul, add_zero, zero_add, sub_zero, zero_sub, mul_one, one_mul]
  all_goals try push_cast
  all_goals comp_eq

theorem d_drag_coefficient__minimum_drag_coefficient (ground_altitude vehicle_angle_of_attack
    mission_altitude mission_flight_path_angle minimum_drag_coefficient base_lift_coefficient
    base_drag_coefficient wing_aspect_ratio wing_height wing_span : ℝ) (h0 : 0 < wing_span) (h1 :
    0 < wing_aspect_ratio) (h2 : (((32 * (((((mission_altitude - ground_altitude) + wing_height) /
    wing_span) * (((6 + wing_aspect_ratio) ^ 2) / (36 + wing_aspect_ratio))) ^ 2)) + 1) - (1 / 2))
    + (((4 * (((mission_altitude - ground_altitude) + wing_height) / wing_span)) * (((6 +
    wing_aspect_ratio) ^ 2) / (36 + wing_aspect_ratio))) * (sqrt ((32 * (((((mission_altitude -
    ground_altitude) + wing_height) / wing_span) * (((6 + wing_aspect_ratio) ^ 2) / (36 +
    wing_aspect_ratio))) ^ 2)) + 1))) ≠ 0) (h3 : (mission_altitude - ground_altitude) +
    wing_height ≠ 0) (h4 : 0 < (mission_altitude - ground_altitude) + wing_height) (h5 : (((32 *
    (((((mission_altitude - ground_altitude) + wing_height) / wing_span) * (((6 +
    wing_aspect_ratio) ^ 2) / (36 + wing_aspect_ratio))) ^ 2)) + 1) - (1 / 2)) + (((4 *
    (((mission_altitude - ground_altitude) + wing_height) / wing_span)) * (((6 +
    wing_aspect_ratio) ^ 2) / (36 + wing_aspect_ratio))) * (sqrt ((32 * (((((mission_altitude -
    ground_altitude) + wing_height) / wing_span) * (((6 + wing_aspect_ratio) ^ 2) / (36 +
    wing_aspect_ratio))) ^ 2)) + 1))) ≠ 0) :
    HasDerivAt (fun t => out_drag_coefficient ground_altitude vehicle_angle_of_attack mission_altitude mission_flight_path_angle t base_lift_coefficient base_drag_coefficient wing_aspect_ratio wing_height wing_span) (J_drag_coefficient__minimum_drag_coefficient ground_altitude mission_altitude wing_aspect_ratio wing_height wing_span) minimum_drag_coefficient := by
  simp only [out_drag_coefficient, J_drag_coefficient__minimum_drag_coefficient, d_dc_mdc, drag_coeff_factor_2, drag_coeff_factor_denom_2, sqrt_get1, lift_coeff_factor_2, lift_coeff_factor_denom_2, sqrt_get0, drag_coefficient_2, drag_coefficient, combined_angle, drag_coeff_factor, drag_coeff_factor_denom, ground_effect_term1, lift_coeff_factor, lift_coeff_factor_denom, ground_effect_term0, aspect_ratio_term, height_factor, ground_effect_state, sqrt_eq_rpow]
  try split_ifs
  all_goals (apply hasDerivAt_of_eq; on_goal 1 => (repeat' comp_step))
  all_goals try comp_side
  all_goals try simp (disch := first | assumption | positivity) only [div_mul_eq_div_div, div_half, inv_half]
  all_goals try split_ifs
  all_goals try (exfalso; linarith)
  all_goals try simp only [mul_zero, zero_mul, add_zero, zero_add, sub_zero, zero_sub, mul_one, one_mul]
  all_goals try push_cast
  all_goals comp_eq

theorem d_drag_coefficient__base_lift_coefficient (ground_altitude vehicle_angle_of_attack
    mission_altitude mission_flight_path_angle minimum_drag_coefficient base_lift_coefficient
    base_drag_coefficient wing_aspect_ratio wing_height wing_span : ℝ) (h0 : 0 < wing_span) (h1 :
    0 < wing_aspect_ratio) (h2 : (((32 * (((((mission_altitude - ground_altitude) + wing_height) /
    wing_span) * (((6 + wing_aspect_ratio) ^ 2) / (36 + wing_aspect_ratio))) ^ 2)) + 1) - (1 / 2))
    + (((4 * (((mission_altitude - ground_altitude) + wing_height) / wing_span)) * (((6 +
    wing_aspect_ratio) ^ 2) / (36 + wing_aspect_ratio))) * (sqrt ((32 * (((((mission_altitude -
    ground_altitude) + wing_height) / wing_span) * (((6 + wing_aspect_ratio) ^ 2) / (36 +
    wing_aspect_ratio))) ^ 2)) + 1))) ≠ 0) (h3 : (mission_altitude - ground_altitude) +
    wing_height ≠ 0) (h4 : 0 < (mission_altitude - ground_altitude) + wing_height) (h5 : (((32 *
    (((((mission_altitude - ground_altitude) + wing_height) / wing_span) * (((6 +
    wing_aspect_ratio) ^ 2) / (36 + wing_aspect_ratio))) ^ 2)) + 1) - (1 / 2)) + (((4 *
    (((mission_altitude - ground_altitude) + wing_height) / wing_span)) * (((6 +
    wing_aspect_ratio) ^ 2) / (36 + wing_aspect_ratio))) * (sqrt ((32 * (((((mission_altitude -
    ground_altitude) + wing_height) / wing_span) * (((6 + wing_aspect_ratio) ^ 2) / (36 +
    wing_aspect_ratio))) ^ 2)) + 1))) ≠ 0) :
    HasDerivAt (fun t => out_drag_coefficient ground_altitude vehicle_angle_of_attack mission_altitude mission_flight_path_angle minimum_drag_coefficient t base_drag_coefficient wing_aspect_ratio wing_height wing_span) (J_drag_coefficient__base_lift_coefficient ground_altitude vehicle_angle_of_attack mission_altitude mission_flight_path_angle wing_aspect_ratio wing_height wing_span) base_lift_coefficient := by
  simp only [out_drag_coefficient, J_drag_coefficient__base_lift_coefficient, d_dc_blc, lift_coeff_factor_2, lift_coeff_factor_denom_2, sqrt_get0, drag_coefficient_2, drag_coefficient, combined_angle, drag_coeff_factor, drag_coeff_factor_denom, ground_effect_term1, lift_coeff_factor, lift_coeff_factor_denom, ground_effect_term0, aspect_ratio_term, height_factor, ground_effect_state, sqrt_eq_rpow]
  try split_ifs
  all_goals (apply hasDerivAt_of_eq; on_goal 1 => (repeat' comp_step))
  all_goals try comp_side
  all_goals try simp (disch := first | assumption | positivity) only [div_mul_eq_div_div, div_half, inv_half]
  all_goals try split_ifs
  all_goals try (exfalso; linarith)
  all_goals try simp only [mul_zero, zero_mul, add_zero, zero_add, sub_zero, zero_sub, mul_one, one_mul]
  all_goals try push_cast
  all_goals comp_eq

theorem d_drag_coefficient__base_drag_coefficient (ground_altitude vehicle_angle_of_attack
    mission_altitude mission_flight_path_angle minimum_drag_coefficient base_lift_coefficient
    base_drag_coefficient wing_aspect_ratio wing_height wing_span : ℝ) (h0 : 0 < wing_span) (h1 :
    0 < wing_aspect_ratio) (h2 : (((32 * (((((mission_altitude - ground_altitude) + wing_height) /
    wing_span) * (((6 + wing_aspect_ratio) ^ 2) / (36 + wing_aspect_ratio))) ^ 2)) + 1) - (1 / 2))
    + (((4 * (((mission_altitude - ground_altitude) + wing_height) / wing_span)) * (((6 +
    wing_aspect_ratio) ^ 2) / (36 + wing_aspect_ratio))) * (sqrt ((32 * (((((mission_altitude -
    ground_altitude) + wing_height) / wing_span) * (((6 + wing_aspect_ratio) ^ 2) / (36 +
    wing_aspect_ratio))) ^ 2)) + 1))) ≠ 0) (h3 : (mission_altitude - ground_altitude) +
    wing_height ≠ 0) (h4 : 0 < (mission_altitude - ground_altitude) + wing_height) (h5 : (((32 *
    (((((mission_altitude - ground_altitude) + wing_height) / wing_span) * (((6 +
    wing_aspect_ratio) ^ 2) / (36 + wing_aspect_ratio))) ^ 2)) + 1) - (1 / 2)) + (((4 *
    (((mission_altitude - ground_altitude) + wing_height) / wing_span)) * (((6 +
    wing_aspect_ratio) ^ 2) / (36 + wing_aspect_ratio))) * (sqrt ((32 * (((((mission_altitude -
    ground_altitude) + wing_height) / wing_span) * (((6 + wing_aspect_ratio) ^ 2) / (36 +
    wing_aspect_ratio))) ^ 2)) + 1))) ≠ 0) :
    HasDerivAt (fun t => out_drag_coefficient ground_altitude vehicle_angle_of_attack mission_altitude mission_flight_path_angle minimum_drag_coefficient base_lift_coefficient t wing_aspect_ratio wing_height wing_span) (J_drag_coefficient__base_drag_coefficient ground_altitude mission_altitude wing_aspect_ratio wing_height wing_span) base_drag_coefficient := by
  simp only [out_drag_coefficient, J_drag_coefficient__base_drag_coefficient, d_dc_bdc, drag_coeff_factor_2, drag_coeff_factor_denom_2, sqrt_get1, lift_coeff_factor_2, lift_coeff_factor_denom_2, sqrt_get0, drag_coefficient_2, drag_coefficient, combined_angle, drag_coeff_factor, drag_coeff_factor_denom, ground_effect_term1, lift_coeff_factor, lift_coeff_factor_denom, ground_effect_term0, aspect_ratio_term, height_factor, ground_effect_state, sqrt_eq_rpow]
  try split_ifs
  all_goals (apply hasDerivAt_of_eq; on_goal 1 => (repeat' comp_step))
  all_goals try comp_side
  all_goals try simp (disch := first | assumption | positivity) only [div_mul_eq_div_div, div_half, inv_half]
  all_goals try split_ifs
  all_goals try (exfalso; linarith)
  all_goals try simp only [mul_zero, zero_mul, add_zero, zero_add, sub_zero, zero_sub, mul_one, one_mul]
  all_goals try push_cast
  all_goals comp_eq

/-- Partial derivatives of `GroundEffect` that are proved correct (the rest is listed in the header). -/
theorem partials_partial (ground_altitude vehicle_angle_of_attack mission_altitude
    mission_flight_path_angle minimum_drag_coefficient base_lift_coefficient base_drag_coefficient
    wing_aspect_ratio wing_height wing_span : ℝ) (h0 : 0 < wing_span) (h1 : 0 < wing_aspect_ratio)
    (h2 : (((32 * (((((mission_altitude - ground_altitude) + wing_height) / wing_span) * (((6 +
    wing_aspect_ratio) ^ 2) / (36 + wing_aspect_ratio))) ^ 2)) + 1) - (1 / 2)) + (((4 *
    (((mission_altitude - ground_altitude) + wing_height) / wing_span)) * (((6 +
    wing_aspect_ratio) ^ 2) / (36 + wing_aspect_ratio))) * (sqrt ((32 * (((((mission_altitude -
    ground_altitude) + wing_height) / wing_span) * (((6 + wing_aspect_ratio) ^ 2) / (36 +
    wing_aspect_ratio))) ^ 2)) + 1))) ≠ 0) (h3 : (mission_altitude - ground_altitude) +
    wing_height ≠ 0) (h4 : 0 < (mission_altitude - ground_altitude) + wing_height) :
    HasDerivAt (fun t => out_lift_coefficient ground_altitude mission_altitude t wing_aspect_ratio
      wing_height wing_span) (J_lift_coefficient__base_lift_coefficient ground_altitude
      mission_altitude wing_aspect_ratio wing_height wing_span) base_lift_coefficient ∧
    HasDerivAt (fun t => out_drag_coefficient ground_altitude t mission_altitude
      mission_flight_path_angle minimum_drag_coefficient base_lift_coefficient
      base_drag_coefficient wing_aspect_ratio wing_height wing_span)
      (J_drag_coefficient__vehicle_angle_of_attack ground_altitude mission_altitude
      base_lift_coefficient wing_aspect_ratio wing_height wing_span) vehicle_angle_of_attack ∧
    HasDerivAt (fun t => out_drag_coefficient ground_altitude vehicle_angle_of_attack mission_altitude
      t minimum_drag_coefficient base_lift_coefficient base_drag_coefficient wing_aspect_ratio
      wing_height wing_span) (J_drag_coefficient__mission_flight_path_angle ground_altitude
      mission_altitude base_lift_coefficient wing_aspect_ratio wing_height wing_span)
      mission_flight_path_angle ∧
    HasDerivAt (fun t => out_drag_coefficient ground_altitude vehicle_angle_of_attack mission_altitude
      mission_flight_path_angle t base_lift_coefficient base_drag_coefficient wing_aspect_ratio
      wing_height wing_span) (J_drag_coefficient__minimum_drag_coefficient ground_altitude
      mission_altitude wing_aspect_ratio wing_height wing_span) minimum_drag_coefficient ∧
    HasDerivAt (fun t => out_drag_coefficient ground_altitude vehicle_angle_of_attack mission_altitude
      mission_flight_path_angle minimum_drag_coefficient t base_drag_coefficient wing_aspect_ratio
      wing_height wing_span) (J_drag_coefficient__base_lift_coefficient ground_altitude
      vehicle_angle_of_attack mission_altitude mission_flight_path_angle wing_aspect_ratio
      wing_height wing_span) base_lift_coefficient ∧
    HasDerivAt (fun t => out_drag_coefficient ground_altitude vehicle_angle_of_attack mission_altitude
      mission_flight_path_angle minimum_drag_coefficient base_lift_coefficient t wing_aspect_ratio
      wing_height wing_span) (J_drag_coefficient__base_drag_coefficient ground_altitude
      mission_altitude wing_aspect_ratio wing_height wing_span) base_drag_coefficient :=
  ⟨d_lift_coefficient__base_lift_coefficient _ _ _ _ _ _ h0 h1 h2 h2,
    d_drag_coefficient__vehicle_angle_of_attack _ _ _ _ _ _ _ _ _ _ h0 h1 h2 h3 h4 h2,
    d_drag_coefficient__mission_flight_path_angle _ _ _ _ _ _ _ _ _ _ h0 h1 h2 h3 h4 h2,
    d_drag_coefficient__minimum_drag_coefficient _ _ _ _ _ _ _ _ _ _ h0 h1 h2 h3 h4 h2,
    d_drag_coefficient__base_lift_coefficient _ _ _ _ _ _ _ _ _ _ h0 h1 h2 h3 h4 h2,
    d_drag_coefficient__base_drag_coefficient _ _ _ _ _ _ _ _ _ _ h0 h1 h2 h3 h4 h2⟩

example : ∃ ground_altitude vehicle_angle_of_attack mission_altitude mission_flight_path_angle
      minimum_drag_coefficient base_lift_coefficient base_drag_coefficient wing_aspect_ratio
      wing_height wing_span : ℝ,
      0 < wing_span ∧
      0 < wing_aspect_ratio ∧
      (((32 * (((((mission_altitude - ground_altitude) + wing_height) / wing_span) * (((6 +
        wing_aspect_ratio) ^ 2) / (36 + wing_aspect_ratio))) ^ 2)) + 1) - (1 / 2)) + (((4 *
        (((mission_altitude - ground_altitude) + wing_height) / wing_span)) * (((6 +
        wing_aspect_ratio) ^ 2) / (36 + wing_aspect_ratio))) * (sqrt ((32 * (((((mission_altitude
        - ground_altitude) + wing_height) / wing_span) * (((6 + wing_aspect_ratio) ^ 2) / (36 +
        wing_aspect_ratio))) ^ 2)) + 1))) ≠ 0 ∧
      (mission_altitude - ground_altitude) + wing_height ≠ 0 ∧
      0 < (mission_altitude - ground_altitude) + wing_height :=
  ⟨1, 1, 1, 1, 1, 1, 1, 1, 1, 1, by comp_example, by comp_example, by comp_example, by
    comp_example, by comp_example⟩

end Verif.Comp.AerodynamicsFlopsBasedGroundEffect.GroundEffect

