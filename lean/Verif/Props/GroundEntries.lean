import Verif.Comp.AerodynamicsFlopsBasedGroundEffect
import Verif.Props.BwbVolume

/-! # The entries of the ground effect left open

The translation of `GroundEffect` (aviary/subsystems/aerodynamics/flops_based/ground_effect.py:10-427)
left the derivatives by altitude, wing height, span and aspect ratio without proof.  They are right
everywhere except at heights of 1 and 1.1 spans, where the formulas change.  The denominators are
positive at every height. -/

set_option linter.all false

namespace Verif.GroundEntries
open Real
open Verif.BwbVolume (deriv_as)

/-- the denominator of the lift never vanishes -/
theorem lift_denom_pos (z : ℝ) : 0 < (32 * z ^ 2 + 1 - 1 / 2) + 4 * z * √(32 * z ^ 2 + 1) := by
  have h0 : 0 < 32 * z ^ 2 + 1 := by positivity
  have hs := sq_sqrt h0.le
  have hp := sqrt_pos.mpr h0
  nlinarith [sq_nonneg (√(32 * z ^ 2 + 1) + 4 * z), sq_nonneg (√(32 * z ^ 2 + 1) + 3 * z), sq_nonneg z]

/-- the denominator of the drag never vanishes -/
theorem drag_denom_pos (z : ℝ) : 0 < 4 * z * √(1 + 32 * z ^ 2) + (1 + 32 * z ^ 2) := by
  have h0 : 0 < 1 + 32 * z ^ 2 := by positivity
  have hs := sq_sqrt h0.le
  have hp := sqrt_pos.mpr h0
  nlinarith [sq_nonneg (√(1 + 32 * z ^ 2) + 4 * z), sq_nonneg z]

/-- the factor of the height -/
theorem height_slope {s : ℝ → ℝ} {t s' : ℝ} (hs : HasDerivAt s s' t) (hne : s t ≠ 1) :
    HasDerivAt (fun y => if 1 < s y then 10 * (11 / 10 - s y) else 1)
      (if 1 < s t then (-10) * s' else 0) t := by
  rcases lt_or_gt_of_ne hne with h | h
  · rw [if_neg (not_lt.mpr h.le)]
    refine (hasDerivAt_const t (1 : ℝ)).congr_of_eventuallyEq ?_
    exact (hs.continuousAt.eventually_lt_const h).mono fun y hy => if_neg (not_lt.mpr (le_of_lt hy))
  · rw [if_pos h]
    refine HasDerivAt.congr_of_eventuallyEq (f := fun y => 10 * (11 / 10 - s y))
      (deriv_as ((hs.const_sub (11 / 10)).const_mul 10) (fun _ => rfl) (by ring)) ?_
    exact (hs.continuousAt.eventually_const_lt h).mono fun y hy => if_pos hy

/-- the factor of the lift through the height -/
theorem lift_height {s : ℝ → ℝ} {t s' : ℝ} (hs : HasDerivAt s s' t) (hne : s t ≠ 1) (a : ℝ) :
    HasDerivAt (fun y => 1 + (if 1 < s y then 10 * (11 / 10 - s y) else 1) /
        (((32 * (s y * a) ^ 2 + 1) - 1 / 2) + ((4 * s y) * a) * √(32 * (s y * a) ^ 2 + 1)))
      (((if 1 < s t then (-10) * s' else 0) *
          (((32 * (s t * a) ^ 2 + 1) - 1 / 2) + ((4 * s t) * a) * √(32 * (s t * a) ^ 2 + 1))
        - (if 1 < s t then 10 * (11 / 10 - s t) else 1) *
          (((64 * s t) * a ^ 2) * s' + (4 * a) * (s' * √(32 * (s t * a) ^ 2 + 1)
            + (s t * ((1 / 2) / √(32 * (s t * a) ^ 2 + 1))) * (((64 * s t) * a ^ 2) * s')))) /
        (((32 * (s t * a) ^ 2 + 1) - 1 / 2) + ((4 * s t) * a) * √(32 * (s t * a) ^ 2 + 1)) ^ 2) t := by
  have hT : HasDerivAt (fun y => 32 * (s y * a) ^ 2 + 1) (((64 * s t) * a ^ 2) * s') t := by
    refine deriv_as ((((hs.mul_const a).pow 2).const_mul 32).add_const 1) (fun _ => rfl) ?_
    simp only [Nat.cast_ofNat]; ring
  have h0 : 0 < 32 * (s t * a) ^ 2 + 1 := by positivity
  have hden := lift_denom_pos (s t * a)
  have hD := (hT.sub_const (1 / 2)).add (((hs.const_mul 4).mul_const a).mul (hT.sqrt h0.ne'))
  have hd : (((32 * (s t * a) ^ 2 + 1) - 1 / 2) + ((4 * s t) * a) * √(32 * (s t * a) ^ 2 + 1)) ≠ 0 := by
    intro hz; rw [← mul_assoc 4] at hden; linarith
  refine deriv_as (((height_slope hs hne).div hD hd).const_add 1) (fun _ => rfl) ?_
  have hr := (sqrt_pos.mpr h0).ne'
  simp only [Pi.add_apply, Pi.mul_apply]
  congr 1
  split_ifs <;> field_simp <;> ring

/-- the factor of the lift through the term of the aspect ratio -/
theorem lift_aspect {a : ℝ → ℝ} {t a' : ℝ} (ha : HasDerivAt a a' t) (z h : ℝ) :
    HasDerivAt (fun y => 1 + h /
        (((32 * (z * a y) ^ 2 + 1) - 1 / 2) + ((4 * z) * a y) * √(32 * (z * a y) ^ 2 + 1)))
      (((-h) * ((64 * (z ^ 2 * a t)) * a' + (4 * z) * (a' * √(32 * (z * a t) ^ 2 + 1)
            + ((a t * (1 / 2)) / √(32 * (z * a t) ^ 2 + 1)) * ((64 * (z ^ 2 * a t)) * a')))) /
        (((32 * (z * a t) ^ 2 + 1) - 1 / 2) + ((4 * z) * a t) * √(32 * (z * a t) ^ 2 + 1)) ^ 2) t := by
  have hT : HasDerivAt (fun y => 32 * (z * a y) ^ 2 + 1) ((64 * (z ^ 2 * a t)) * a') t := by
    refine deriv_as ((((ha.const_mul z).pow 2).const_mul 32).add_const 1) (fun _ => rfl) ?_
    simp only [Nat.cast_ofNat]; ring
  have h0 : 0 < 32 * (z * a t) ^ 2 + 1 := by positivity
  have hden := lift_denom_pos (z * a t)
  have hD := (hT.sub_const (1 / 2)).add ((ha.const_mul (4 * z)).mul (hT.sqrt h0.ne'))
  have hd : (((32 * (z * a t) ^ 2 + 1) - 1 / 2) + ((4 * z) * a t) * √(32 * (z * a t) ^ 2 + 1)) ≠ 0 := by
    intro hz; rw [← mul_assoc 4] at hden; linarith
  refine deriv_as (((hasDerivAt_const t h).div hD hd).const_add 1) (fun _ => rfl) ?_
  have hr := (sqrt_pos.mpr h0).ne'
  simp only [Pi.add_apply, Pi.mul_apply]
  congr 1
  field_simp
  ring

/-- the factor of the drag through the height -/
theorem drag_height {s : ℝ → ℝ} {t s' : ℝ} (hs : HasDerivAt s s' t) (hne : s t ≠ 1) :
    HasDerivAt (fun y => 1 - (if 1 < s y then 10 * (11 / 10 - s y) else 1) /
        ((4 * s y) * √(1 + 32 * s y ^ 2) + (1 + 32 * s y ^ 2)))
      ((-((if 1 < s t then (-10) * s' else 0) * ((4 * s t) * √(1 + 32 * s t ^ 2) + (1 + 32 * s t ^ 2))
        - (if 1 < s t then 10 * (11 / 10 - s t) else 1) *
          (4 * (s' * √(1 + 32 * s t ^ 2) + s t * (((1 / 2) * ((64 * s t) * s')) / √(1 + 32 * s t ^ 2)))
            + (64 * s t) * s'))) /
        ((4 * s t) * √(1 + 32 * s t ^ 2) + (1 + 32 * s t ^ 2)) ^ 2) t := by
  have hT : HasDerivAt (fun y => 1 + 32 * s y ^ 2) ((64 * s t) * s') t := by
    refine deriv_as (((hs.pow 2).const_mul 32).const_add 1) (fun _ => rfl) ?_
    simp only [Nat.cast_ofNat]; ring
  have h0 : 0 < 1 + 32 * s t ^ 2 := by positivity
  have hd := (drag_denom_pos (s t)).ne'
  have hD := ((hs.const_mul 4).mul (hT.sqrt h0.ne')).add hT
  refine deriv_as (((height_slope hs hne).div hD hd).const_sub 1) (fun _ => rfl) ?_
  have hr := (sqrt_pos.mpr h0).ne'
  simp only [Pi.add_apply, Pi.mul_apply]
  rw [← neg_div]
  congr 1
  split_ifs <;> field_simp <;> ring

/-- the drag through both factors -/
theorem drag_chain {l d : ℝ → ℝ} {t l' d' : ℝ} (hl : HasDerivAt l l' t) (hd : HasDerivAt d d' t)
    (m k c : ℝ) :
    HasDerivAt (fun y => (m + (l y * d y) * k) + c * (l y - 1))
      (((l' * d t) + (d' * l t)) * k + c * l') t := by
  refine deriv_as ((((hl.mul hd).mul_const k).const_add m).add ((hl.sub_const 1).const_mul c))
    (fun _ => rfl) ?_
  ring

/-- above 1.1 spans nothing of the ground is felt -/
theorem gate {s f : ℝ → ℝ} {t s' f' : ℝ} (hs : HasDerivAt s s' t) (h : s t ≠ 11 / 10)
    (hf : HasDerivAt f f' t) (c : ℝ) :
    HasDerivAt (fun y => if 11 / 10 < s y then c else f y)
      (if 11 / 10 < s t then (if 11 / 10 < s t then 0 else f') else f') t := by
  rcases lt_or_gt_of_ne h with h | h
  · rw [if_neg (not_lt.mpr h.le)]
    exact hf.congr_of_eventuallyEq ((hs.continuousAt.eventually_lt_const h).mono
      fun y hy => if_neg (not_lt.mpr (le_of_lt hy)))
  · rw [if_pos h, if_pos h]
    exact (hasDerivAt_const t c).congr_of_eventuallyEq ((hs.continuousAt.eventually_const_lt h).mono
      fun y hy => if_pos hy)

open Verif.Comp.AerodynamicsFlopsBasedGroundEffect.GroundEffect

/-- the declared derivative of the lift coefficient by `mission_altitude` is right away from the two switches,
aviary/subsystems/aerodynamics/flops_based/ground_effect.py:137-427 -/
theorem lift_by_mission_altitude (ground_altitude mission_altitude base_lift_coefficient wing_aspect_ratio wing_height wing_span : ℝ)
    (hb : 0 < wing_span)
    (h1 : ground_effect_state ground_altitude mission_altitude wing_height wing_span ≠ 1)
    (h2 : ground_effect_state ground_altitude mission_altitude wing_height wing_span ≠ 11 / 10) :
    HasDerivAt (fun y => out_lift_coefficient ground_altitude y base_lift_coefficient wing_aspect_ratio wing_height wing_span)
      (J_lift_coefficient__mission_altitude ground_altitude mission_altitude base_lift_coefficient wing_aspect_ratio wing_height wing_span) mission_altitude := by
  have hs : HasDerivAt (fun y => ground_effect_state ground_altitude y wing_height wing_span) (d_ges_alt wing_span) mission_altitude := by
    refine deriv_as ((((hasDerivAt_id mission_altitude).sub_const ground_altitude).add_const wing_height).div_const wing_span) (fun _ => rfl) rfl
  have hL : HasDerivAt (fun y => lift_coeff_factor ground_altitude y wing_aspect_ratio wing_height wing_span) (d_lcf_alt ground_altitude mission_altitude wing_aspect_ratio wing_height wing_span) mission_altitude := by
    refine deriv_as (lift_height hs h1 (aspect_ratio_term wing_aspect_ratio)) (fun _ => rfl) ?_
    simp only [d_lcf_alt, d_hf_alt, height_factor, lift_coeff_factor_denom_2, d_lcfd_alt, d_get0_alt, sqrt_get0, ground_effect_term0, d_ges_alt]
    congr 1
    split_ifs <;> ring
  exact deriv_as (gate hs h2 (hL.const_mul base_lift_coefficient) base_lift_coefficient) (fun _ => rfl) rfl

/-- the declared derivative of the drag coefficient by `mission_altitude` is right away from the two switches,
aviary/subsystems/aerodynamics/flops_based/ground_effect.py:137-427 -/
theorem drag_by_mission_altitude (ground_altitude vehicle_angle_of_attack mission_altitude mission_flight_path_angle minimum_drag_coefficient base_lift_coefficient base_drag_coefficient wing_aspect_ratio wing_height wing_span : ℝ)
    (hb : 0 < wing_span)
    (h1 : ground_effect_state ground_altitude mission_altitude wing_height wing_span ≠ 1)
    (h2 : ground_effect_state ground_altitude mission_altitude wing_height wing_span ≠ 11 / 10) :
    HasDerivAt (fun y => out_drag_coefficient ground_altitude vehicle_angle_of_attack y mission_flight_path_angle minimum_drag_coefficient base_lift_coefficient base_drag_coefficient wing_aspect_ratio wing_height wing_span)
      (J_drag_coefficient__mission_altitude ground_altitude vehicle_angle_of_attack mission_altitude mission_flight_path_angle minimum_drag_coefficient base_lift_coefficient base_drag_coefficient wing_aspect_ratio wing_height wing_span) mission_altitude := by
  have hs : HasDerivAt (fun y => ground_effect_state ground_altitude y wing_height wing_span) (d_ges_alt wing_span) mission_altitude := by
    refine deriv_as ((((hasDerivAt_id mission_altitude).sub_const ground_altitude).add_const wing_height).div_const wing_span) (fun _ => rfl) rfl
  have hL : HasDerivAt (fun y => lift_coeff_factor ground_altitude y wing_aspect_ratio wing_height wing_span) (d_lcf_alt ground_altitude mission_altitude wing_aspect_ratio wing_height wing_span) mission_altitude := by
    refine deriv_as (lift_height hs h1 (aspect_ratio_term wing_aspect_ratio)) (fun _ => rfl) ?_
    simp only [d_lcf_alt, d_hf_alt, height_factor, lift_coeff_factor_denom_2, d_lcfd_alt, d_get0_alt, sqrt_get0, ground_effect_term0, d_ges_alt]
    congr 1
    split_ifs <;> ring
  have hD : HasDerivAt (fun y => drag_coeff_factor ground_altitude y wing_height wing_span) (d_dcf_alt ground_altitude mission_altitude wing_height wing_span) mission_altitude := by
    refine deriv_as (drag_height hs h1) (fun _ => rfl) ?_
    simp only [d_dcf_alt, d_hf_alt, height_factor, drag_coeff_factor_denom_2, d_dcfd_alt, d_get1_alt, d_g, d_g_2, sqrt_get1, ground_effect_term1, d_ges_alt]
    congr 1
    split_ifs <;> ring
  have hF := drag_chain hL hD minimum_drag_coefficient (base_drag_coefficient - minimum_drag_coefficient) (combined_angle vehicle_angle_of_attack mission_flight_path_angle * base_lift_coefficient)
  have hF2 : HasDerivAt (fun y => drag_coefficient ground_altitude vehicle_angle_of_attack y mission_flight_path_angle minimum_drag_coefficient base_lift_coefficient base_drag_coefficient wing_aspect_ratio wing_height wing_span) (d_dc_alt ground_altitude vehicle_angle_of_attack mission_altitude mission_flight_path_angle minimum_drag_coefficient base_lift_coefficient base_drag_coefficient wing_aspect_ratio wing_height wing_span) mission_altitude := by
    refine deriv_as hF (fun _ => rfl) ?_
    simp only [d_dc_alt]
  exact deriv_as (gate hs h2 hF2 base_drag_coefficient) (fun _ => rfl) rfl

/-- the declared derivative of the lift coefficient by `wing_height` is right away from the two switches,
aviary/subsystems/aerodynamics/flops_based/ground_effect.py:137-427 -/
theorem lift_by_wing_height (ground_altitude mission_altitude base_lift_coefficient wing_aspect_ratio wing_height wing_span : ℝ)
    (hb : 0 < wing_span)
    (h1 : ground_effect_state ground_altitude mission_altitude wing_height wing_span ≠ 1)
    (h2 : ground_effect_state ground_altitude mission_altitude wing_height wing_span ≠ 11 / 10) :
    HasDerivAt (fun y => out_lift_coefficient ground_altitude mission_altitude base_lift_coefficient wing_aspect_ratio y wing_span)
      (J_lift_coefficient__wing_height ground_altitude mission_altitude base_lift_coefficient wing_aspect_ratio wing_height wing_span) wing_height := by
  have hs : HasDerivAt (fun y => ground_effect_state ground_altitude mission_altitude y wing_span) (d_ges_alt wing_span) wing_height := by
    refine deriv_as (((hasDerivAt_id wing_height).const_add (mission_altitude - ground_altitude)).div_const wing_span) (fun _ => rfl) rfl
  have hL : HasDerivAt (fun y => lift_coeff_factor ground_altitude mission_altitude wing_aspect_ratio y wing_span) (d_lcf_alt ground_altitude mission_altitude wing_aspect_ratio wing_height wing_span) wing_height := by
    refine deriv_as (lift_height hs h1 (aspect_ratio_term wing_aspect_ratio)) (fun _ => rfl) ?_
    simp only [d_lcf_alt, d_hf_alt, height_factor, lift_coeff_factor_denom_2, d_lcfd_alt, d_get0_alt, sqrt_get0, ground_effect_term0, d_ges_alt]
    congr 1
    split_ifs <;> ring
  exact deriv_as (gate hs h2 (hL.const_mul base_lift_coefficient) base_lift_coefficient) (fun _ => rfl) rfl

/-- the declared derivative of the drag coefficient by `wing_height` is right away from the two switches,
aviary/subsystems/aerodynamics/flops_based/ground_effect.py:137-427 -/
theorem drag_by_wing_height (ground_altitude vehicle_angle_of_attack mission_altitude mission_flight_path_angle minimum_drag_coefficient base_lift_coefficient base_drag_coefficient wing_aspect_ratio wing_height wing_span : ℝ)
    (hb : 0 < wing_span)
    (h1 : ground_effect_state ground_altitude mission_altitude wing_height wing_span ≠ 1)
    (h2 : ground_effect_state ground_altitude mission_altitude wing_height wing_span ≠ 11 / 10) :
    HasDerivAt (fun y => out_drag_coefficient ground_altitude vehicle_angle_of_attack mission_altitude mission_flight_path_angle minimum_drag_coefficient base_lift_coefficient base_drag_coefficient wing_aspect_ratio y wing_span)
      (J_drag_coefficient__wing_height ground_altitude vehicle_angle_of_attack mission_altitude mission_flight_path_angle minimum_drag_coefficient base_lift_coefficient base_drag_coefficient wing_aspect_ratio wing_height wing_span) wing_height := by
  have hs : HasDerivAt (fun y => ground_effect_state ground_altitude mission_altitude y wing_span) (d_ges_alt wing_span) wing_height := by
    refine deriv_as (((hasDerivAt_id wing_height).const_add (mission_altitude - ground_altitude)).div_const wing_span) (fun _ => rfl) rfl
  have hL : HasDerivAt (fun y => lift_coeff_factor ground_altitude mission_altitude wing_aspect_ratio y wing_span) (d_lcf_alt ground_altitude mission_altitude wing_aspect_ratio wing_height wing_span) wing_height := by
    refine deriv_as (lift_height hs h1 (aspect_ratio_term wing_aspect_ratio)) (fun _ => rfl) ?_
    simp only [d_lcf_alt, d_hf_alt, height_factor, lift_coeff_factor_denom_2, d_lcfd_alt, d_get0_alt, sqrt_get0, ground_effect_term0, d_ges_alt]
    congr 1
    split_ifs <;> ring
  have hD : HasDerivAt (fun y => drag_coeff_factor ground_altitude mission_altitude y wing_span) (d_dcf_alt ground_altitude mission_altitude wing_height wing_span) wing_height := by
    refine deriv_as (drag_height hs h1) (fun _ => rfl) ?_
    simp only [d_dcf_alt, d_hf_alt, height_factor, drag_coeff_factor_denom_2, d_dcfd_alt, d_get1_alt, d_g, d_g_2, sqrt_get1, ground_effect_term1, d_ges_alt]
    congr 1
    split_ifs <;> ring
  have hF := drag_chain hL hD minimum_drag_coefficient (base_drag_coefficient - minimum_drag_coefficient) (combined_angle vehicle_angle_of_attack mission_flight_path_angle * base_lift_coefficient)
  have hF2 : HasDerivAt (fun y => drag_coefficient ground_altitude vehicle_angle_of_attack mission_altitude mission_flight_path_angle minimum_drag_coefficient base_lift_coefficient base_drag_coefficient wing_aspect_ratio y wing_span) (d_dc_alt ground_altitude vehicle_angle_of_attack mission_altitude mission_flight_path_angle minimum_drag_coefficient base_lift_coefficient base_drag_coefficient wing_aspect_ratio wing_height wing_span) wing_height := by
    refine deriv_as hF (fun _ => rfl) ?_
    simp only [d_dc_alt]
  exact deriv_as (gate hs h2 hF2 base_drag_coefficient) (fun _ => rfl) rfl

/-- the declared derivative of the lift coefficient by `wing_span` is right away from the two switches,
aviary/subsystems/aerodynamics/flops_based/ground_effect.py:137-427 -/
theorem lift_by_wing_span (ground_altitude mission_altitude base_lift_coefficient wing_aspect_ratio wing_height wing_span : ℝ)
    (hb : 0 < wing_span)
    (h1 : ground_effect_state ground_altitude mission_altitude wing_height wing_span ≠ 1)
    (h2 : ground_effect_state ground_altitude mission_altitude wing_height wing_span ≠ 11 / 10) :
    HasDerivAt (fun y => out_lift_coefficient ground_altitude mission_altitude base_lift_coefficient wing_aspect_ratio wing_height y)
      (J_lift_coefficient__wing_span ground_altitude mission_altitude base_lift_coefficient wing_aspect_ratio wing_height wing_span) wing_span := by
  have hs : HasDerivAt (fun y => ground_effect_state ground_altitude mission_altitude wing_height y) (d_ges_b ground_altitude mission_altitude wing_height wing_span) wing_span := by
    refine deriv_as ((hasDerivAt_const wing_span ((mission_altitude - ground_altitude) + wing_height)).div (hasDerivAt_id wing_span) hb.ne') (fun _ => rfl) ?_
    simp only [d_ges_b, id]
    ring
  have hL : HasDerivAt (fun y => lift_coeff_factor ground_altitude mission_altitude wing_aspect_ratio wing_height y) (d_lcf_b ground_altitude mission_altitude wing_aspect_ratio wing_height wing_span) wing_span := by
    refine deriv_as (lift_height hs h1 (aspect_ratio_term wing_aspect_ratio)) (fun _ => rfl) ?_
    simp only [d_lcf_b, d_hf_b, height_factor, lift_coeff_factor_denom_2, d_lcfd_b, d_get0_b, sqrt_get0, ground_effect_term0, d_ges_b]
    congr 1
    split_ifs <;> ring
  exact deriv_as (gate hs h2 (hL.const_mul base_lift_coefficient) base_lift_coefficient) (fun _ => rfl) rfl

/-- the declared derivative of the drag coefficient by `wing_span` is right away from the two switches,
aviary/subsystems/aerodynamics/flops_based/ground_effect.py:137-427 -/
theorem drag_by_wing_span (ground_altitude vehicle_angle_of_attack mission_altitude mission_flight_path_angle minimum_drag_coefficient base_lift_coefficient base_drag_coefficient wing_aspect_ratio wing_height wing_span : ℝ)
    (hb : 0 < wing_span)
    (h1 : ground_effect_state ground_altitude mission_altitude wing_height wing_span ≠ 1)
    (h2 : ground_effect_state ground_altitude mission_altitude wing_height wing_span ≠ 11 / 10) :
    HasDerivAt (fun y => out_drag_coefficient ground_altitude vehicle_angle_of_attack mission_altitude mission_flight_path_angle minimum_drag_coefficient base_lift_coefficient base_drag_coefficient wing_aspect_ratio wing_height y)
      (J_drag_coefficient__wing_span ground_altitude vehicle_angle_of_attack mission_altitude mission_flight_path_angle minimum_drag_coefficient base_lift_coefficient base_drag_coefficient wing_aspect_ratio wing_height wing_span) wing_span := by
  have hs : HasDerivAt (fun y => ground_effect_state ground_altitude mission_altitude wing_height y) (d_ges_b ground_altitude mission_altitude wing_height wing_span) wing_span := by
    refine deriv_as ((hasDerivAt_const wing_span ((mission_altitude - ground_altitude) + wing_height)).div (hasDerivAt_id wing_span) hb.ne') (fun _ => rfl) ?_
    simp only [d_ges_b, id]
    ring
  have hL : HasDerivAt (fun y => lift_coeff_factor ground_altitude mission_altitude wing_aspect_ratio wing_height y) (d_lcf_b ground_altitude mission_altitude wing_aspect_ratio wing_height wing_span) wing_span := by
    refine deriv_as (lift_height hs h1 (aspect_ratio_term wing_aspect_ratio)) (fun _ => rfl) ?_
    simp only [d_lcf_b, d_hf_b, height_factor, lift_coeff_factor_denom_2, d_lcfd_b, d_get0_b, sqrt_get0, ground_effect_term0, d_ges_b]
    congr 1
    split_ifs <;> ring
  have hD : HasDerivAt (fun y => drag_coeff_factor ground_altitude mission_altitude wing_height y) (d_dcf_b ground_altitude mission_altitude wing_height wing_span) wing_span := by
    refine deriv_as (drag_height hs h1) (fun _ => rfl) ?_
    simp only [d_dcf_b, d_hf_b, height_factor, drag_coeff_factor_denom_2, d_dcfd_b, d_get1_b, d_g, d_g_2, sqrt_get1, ground_effect_term1, d_ges_b]
  have hF := drag_chain hL hD minimum_drag_coefficient (base_drag_coefficient - minimum_drag_coefficient) (combined_angle vehicle_angle_of_attack mission_flight_path_angle * base_lift_coefficient)
  have hF2 : HasDerivAt (fun y => drag_coefficient ground_altitude vehicle_angle_of_attack mission_altitude mission_flight_path_angle minimum_drag_coefficient base_lift_coefficient base_drag_coefficient wing_aspect_ratio wing_height y) (d_dc_b ground_altitude vehicle_angle_of_attack mission_altitude mission_flight_path_angle minimum_drag_coefficient base_lift_coefficient base_drag_coefficient wing_aspect_ratio wing_height wing_span) wing_span := by
    refine deriv_as hF (fun _ => rfl) ?_
    simp only [d_dc_b]
    ring
  exact deriv_as (gate hs h2 hF2 base_drag_coefficient) (fun _ => rfl) rfl

/-- the declared derivative of the lift coefficient by `wing_aspect_ratio` is right away from the two switches,
aviary/subsystems/aerodynamics/flops_based/ground_effect.py:137-427 -/
theorem lift_by_wing_aspect_ratio (ground_altitude mission_altitude base_lift_coefficient wing_aspect_ratio wing_height wing_span : ℝ)
    (hb : 0 < wing_span) (ha : 36 + wing_aspect_ratio ≠ 0)
    (h2 : ground_effect_state ground_altitude mission_altitude wing_height wing_span ≠ 11 / 10) :
    HasDerivAt (fun y => out_lift_coefficient ground_altitude mission_altitude base_lift_coefficient y wing_height wing_span)
      (J_lift_coefficient__wing_aspect_ratio ground_altitude mission_altitude base_lift_coefficient wing_aspect_ratio wing_height wing_span) wing_aspect_ratio := by
  have hs : HasDerivAt (fun _ : ℝ => ground_effect_state ground_altitude mission_altitude wing_height wing_span) 0 wing_aspect_ratio := hasDerivAt_const _ _
  have hA : HasDerivAt (fun y => aspect_ratio_term y) (d_art_ar wing_aspect_ratio) wing_aspect_ratio := by
    have h0 : HasDerivAt (fun y : ℝ => (6 + y) ^ 2) (2 * (6 + wing_aspect_ratio)) wing_aspect_ratio := by
      refine deriv_as (((hasDerivAt_id wing_aspect_ratio).const_add 6).pow 2) (fun _ => rfl) ?_
      simp
    have h3 : HasDerivAt (fun y : ℝ => 36 + y) 1 wing_aspect_ratio := by simpa using (hasDerivAt_id wing_aspect_ratio).const_add 36
    refine deriv_as (h0.div h3 ha) (fun _ => rfl) ?_
    simp only [d_art_ar, d_f, f, g, mul_one]
  have hL : HasDerivAt (fun y => lift_coeff_factor ground_altitude mission_altitude y wing_height wing_span) (d_lcf_ar ground_altitude mission_altitude wing_aspect_ratio wing_height wing_span) wing_aspect_ratio :=
    deriv_as (lift_aspect hA (ground_effect_state ground_altitude mission_altitude wing_height wing_span) (height_factor ground_altitude mission_altitude wing_height wing_span)) (fun _ => rfl) rfl
  exact deriv_as (gate hs h2 (hL.const_mul base_lift_coefficient) base_lift_coefficient) (fun _ => rfl) rfl

/-- the declared derivative of the drag coefficient by `wing_aspect_ratio` is right away from the two switches,
aviary/subsystems/aerodynamics/flops_based/ground_effect.py:137-427 -/
theorem drag_by_wing_aspect_ratio (ground_altitude vehicle_angle_of_attack mission_altitude mission_flight_path_angle minimum_drag_coefficient base_lift_coefficient base_drag_coefficient wing_aspect_ratio wing_height wing_span : ℝ)
    (hb : 0 < wing_span) (ha : 36 + wing_aspect_ratio ≠ 0)
    (h2 : ground_effect_state ground_altitude mission_altitude wing_height wing_span ≠ 11 / 10) :
    HasDerivAt (fun y => out_drag_coefficient ground_altitude vehicle_angle_of_attack mission_altitude mission_flight_path_angle minimum_drag_coefficient base_lift_coefficient base_drag_coefficient y wing_height wing_span)
      (J_drag_coefficient__wing_aspect_ratio ground_altitude vehicle_angle_of_attack mission_altitude mission_flight_path_angle minimum_drag_coefficient base_lift_coefficient base_drag_coefficient wing_aspect_ratio wing_height wing_span) wing_aspect_ratio := by
  have hs : HasDerivAt (fun _ : ℝ => ground_effect_state ground_altitude mission_altitude wing_height wing_span) 0 wing_aspect_ratio := hasDerivAt_const _ _
  have hA : HasDerivAt (fun y => aspect_ratio_term y) (d_art_ar wing_aspect_ratio) wing_aspect_ratio := by
    have h0 : HasDerivAt (fun y : ℝ => (6 + y) ^ 2) (2 * (6 + wing_aspect_ratio)) wing_aspect_ratio := by
      refine deriv_as (((hasDerivAt_id wing_aspect_ratio).const_add 6).pow 2) (fun _ => rfl) ?_
      simp
    have h3 : HasDerivAt (fun y : ℝ => 36 + y) 1 wing_aspect_ratio := by simpa using (hasDerivAt_id wing_aspect_ratio).const_add 36
    refine deriv_as (h0.div h3 ha) (fun _ => rfl) ?_
    simp only [d_art_ar, d_f, f, g, mul_one]
  have hL : HasDerivAt (fun y => lift_coeff_factor ground_altitude mission_altitude y wing_height wing_span) (d_lcf_ar ground_altitude mission_altitude wing_aspect_ratio wing_height wing_span) wing_aspect_ratio :=
    deriv_as (lift_aspect hA (ground_effect_state ground_altitude mission_altitude wing_height wing_span) (height_factor ground_altitude mission_altitude wing_height wing_span)) (fun _ => rfl) rfl
  have hD : HasDerivAt (fun _ : ℝ => drag_coeff_factor ground_altitude mission_altitude wing_height wing_span) 0 wing_aspect_ratio := hasDerivAt_const _ _
  have hF := drag_chain hL hD minimum_drag_coefficient (base_drag_coefficient - minimum_drag_coefficient) (combined_angle vehicle_angle_of_attack mission_flight_path_angle * base_lift_coefficient)
  have hF2 : HasDerivAt (fun y => drag_coefficient ground_altitude vehicle_angle_of_attack mission_altitude mission_flight_path_angle minimum_drag_coefficient base_lift_coefficient base_drag_coefficient y wing_height wing_span) (d_dc_ar ground_altitude vehicle_angle_of_attack mission_altitude mission_flight_path_angle minimum_drag_coefficient base_lift_coefficient base_drag_coefficient wing_aspect_ratio wing_height wing_span) wing_aspect_ratio := by
    refine deriv_as hF (fun _ => rfl) ?_
    simp only [d_dc_ar]
    ring
  exact deriv_as (gate hs h2 hF2 base_drag_coefficient) (fun _ => rfl) rfl

/-- near the ground a lift that is not negative never falls, at any height,
aviary/subsystems/aerodynamics/flops_based/ground_effect.py:137-186 -/
theorem lift_not_less (ground_altitude mission_altitude base_lift_coefficient wing_aspect_ratio wing_height wing_span : ℝ)
    (hl : 0 ≤ base_lift_coefficient) :
    base_lift_coefficient ≤ out_lift_coefficient ground_altitude mission_altitude base_lift_coefficient wing_aspect_ratio wing_height wing_span := by
  simp only [out_lift_coefficient, lift_coefficient_2, lift_coefficient, lift_coeff_factor, height_factor, lift_coeff_factor_denom, ground_effect_term0]
  generalize ground_effect_state ground_altitude mission_altitude wing_height wing_span = s
  generalize aspect_ratio_term wing_aspect_ratio = a
  have hp := lift_denom_pos (s * a)
  rw [← mul_assoc 4] at hp
  split_ifs with h1 h2
  · exact le_refl _
  · have : 0 ≤ 10 * (11 / 10 - s) / (32 * (s * a) ^ 2 + 1 - 1 / 2 + 4 * s * a * √(32 * (s * a) ^ 2 + 1)) :=
      div_nonneg (by linarith [not_lt.mp h1]) hp.le
    nlinarith [mul_nonneg hl this]
  · have : 0 ≤ 1 / (32 * (s * a) ^ 2 + 1 - 1 / 2 + 4 * s * a * √(32 * (s * a) ^ 2 + 1)) :=
      div_nonneg one_pos.le hp.le
    nlinarith [mul_nonneg hl this]

/-- at a height that is not negative the induced drag is scaled by a factor between 0 and 1 before
the lift factor acts, aviary/subsystems/aerodynamics/flops_based/ground_effect.py:172-180 -/
theorem drag_factor_mem (ground_altitude mission_altitude wing_height wing_span : ℝ)
    (h0 : 0 ≤ ground_effect_state ground_altitude mission_altitude wing_height wing_span)
    (h1 : ground_effect_state ground_altitude mission_altitude wing_height wing_span ≤ 11 / 10) :
    0 ≤ drag_coeff_factor ground_altitude mission_altitude wing_height wing_span ∧
      drag_coeff_factor ground_altitude mission_altitude wing_height wing_span ≤ 1 := by
  simp only [drag_coeff_factor, height_factor, drag_coeff_factor_denom, ground_effect_term1]
  revert h0 h1
  generalize ground_effect_state ground_altitude mission_altitude wing_height wing_span = s
  intro h0 h1
  have hd : 1 ≤ 4 * s * √(1 + 32 * s ^ 2) + (1 + 32 * s ^ 2) := by
    have : 0 ≤ 4 * s * √(1 + 32 * s ^ 2) := by positivity
    nlinarith [sq_nonneg s]
  have hp := lt_of_lt_of_le one_pos hd
  have hh : (0 : ℝ) ≤ (if 1 < s then 10 * (11 / 10 - s) else 1) ∧
      (if 1 < s then 10 * (11 / 10 - s) else 1) ≤ (1 : ℝ) := by
    split_ifs <;> constructor <;> linarith
  exact ⟨sub_nonneg.mpr ((div_le_one hp).mpr (hh.2.trans hd)),
    sub_le_self _ (div_nonneg hh.1 hp.le)⟩

example : ground_effect_state 0 20 10 100 = 3 / 10 := by norm_num [ground_effect_state]

example : ground_effect_state 0 95 10 100 ≠ 1 ∧ ground_effect_state 0 95 10 100 ≠ 11 / 10 ∧
    1 < ground_effect_state 0 95 10 100 := by norm_num [ground_effect_state]

end Verif.GroundEntries
