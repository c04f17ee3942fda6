import Verif.Comp.GeometryGaspBasedWing1
import Verif.Comp.GeometryGaspBasedWing2
import Verif.Comp.GeometryGaspBasedWing3
import Verif.Comp.GeometryFlopsBasedWing
import Verif.Comp.GeometryGaspBasedEngine
import Verif.Comp.GeometryGaspBasedStrut
import Mathlib.Analysis.SpecialFunctions.Integrals.Basic
import Mathlib.Tactic.LinearCombination

/-!
# Wing geometry: the formulas are those of a trapezoidal wing

The chord at distance `y` from the centre line of a wing with centre chord `c`, taper ratio `l` and span `b`
is `chord c l b y`. Areas are integrals of it.
-/

namespace Verif.Wing
open Real
open Comp.GeometryGaspBasedWing

/-- Chord of a trapezoidal wing. -/
noncomputable def chord (c l b y : ℝ) : ℝ := c * (1 - (1 - l) * (2 * y / b))

theorem integral_chord (c l b p q : ℝ) :
    ∫ y in p..q, chord c l b y = c * (q - p) - c * (1 - l) / b * (q ^ 2 - p ^ 2) := by
  have : ∀ y, HasDerivAt (fun y => c * y - c * (1 - l) / b * y ^ 2) (chord c l b y) y := by
    intro y
    have := ((hasDerivAt_id y).const_mul c).sub (((hasDerivAt_pow 2 y)).const_mul (c * (1 - l) / b))
    refine this.congr_deriv ?_
    simp only [chord]
    norm_num
    ring
  rw [intervalIntegral.integral_eq_sub_of_hasDerivAt (fun y _ => this y)]
  · ring
  · apply Continuous.intervalIntegrable
    unfold chord
    fun_prop

theorem integral_chord_sq (c l b q : ℝ) :
    ∫ y in (0 : ℝ)..q, chord c l b y ^ 2 =
      c ^ 2 * (q - 2 * (1 - l) / b * q ^ 2 + 4 * (1 - l) ^ 2 / (3 * b ^ 2) * q ^ 3) := by
  have : ∀ y, HasDerivAt (fun y => c ^ 2 * (y - 2 * (1 - l) / b * y ^ 2 + 4 * (1 - l) ^ 2 / (3 * b ^ 2) * y ^ 3))
      (chord c l b y ^ 2) y := by
    intro y
    have := ((((hasDerivAt_id y).sub ((hasDerivAt_pow 2 y).const_mul (2 * (1 - l) / b)))).add
      ((hasDerivAt_pow 3 y).const_mul (4 * (1 - l) ^ 2 / (3 * b ^ 2)))).const_mul (c ^ 2)
    refine this.congr_deriv ?_
    simp only [chord]
    norm_num
    ring
  rw [intervalIntegral.integral_eq_sub_of_hasDerivAt (fun y _ => this y)]
  · ring
  · apply Continuous.intervalIntegrable
    unfold chord
    fun_prop

/-- The centre chord makes the trapezoid have the given area. -/
theorem area (S b l : ℝ) (hb : b ≠ 0) (hl : 1 + l ≠ 0) :
    2 * ∫ y in (0 : ℝ)..(b / 2), chord (WingParameters.out_wing_center_chord S b l) l b y = S := by
  rw [integral_chord]
  simp only [WingParameters.out_wing_center_chord, WingParameters.center_chord]
  field_simp
  ring

/-- The average chord is the mean aerodynamic chord: twice the integral of the squared chord over the area. -/
theorem mean_aerodynamic_chord (S b l : ℝ) (hS : S ≠ 0) (hb : b ≠ 0) (hl : 1 + l ≠ 0) :
    WingParameters.out_wing_average_chord S b l =
      2 / S * ∫ y in (0 : ℝ)..(b / 2), chord (WingParameters.out_wing_center_chord S b l) l b y ^ 2 := by
  rw [integral_chord_sq]
  simp only [WingParameters.out_wing_average_chord, WingParameters.avg_chord, WingParameters.out_wing_center_chord,
    WingParameters.center_chord]
  field_simp
  ring

/-- Leading and trailing edge: the position of the edge relative to the quarter chord line, which has the sweep
of the input, moves backward with the tangent that the component uses. -/
theorem edge_sweep (S b l sw y : ℝ) (hS : S ≠ 0) (hb : b ≠ 0) (hl : 1 + l ≠ 0) :
    HasDerivAt (fun y => y * tan (sw * π / 180) - 1 / 4 * chord (WingParameters.out_wing_center_chord S b l) l b y)
      (tan (WingParameters.out_wing_leading_edge_sweep (b ^ 2 / S) l sw)) y ∧
    HasDerivAt (fun y => y * tan (sw * π / 180) + 3 / 4 * chord (WingParameters.out_wing_center_chord S b l) l b y)
      (WingParameters.tan_sweep_te (b ^ 2 / S) l sw) y := by
  have hc : HasDerivAt (fun y => chord (WingParameters.out_wing_center_chord S b l) l b y)
      (-(WingParameters.out_wing_center_chord S b l * (1 - l) * (2 / b))) y := by
    unfold chord
    have := (((((hasDerivAt_id y).const_mul 2).div_const b).const_mul (1 - l)).const_sub 1).const_mul
      (WingParameters.out_wing_center_chord S b l)
    refine this.congr_deriv ?_
    ring
  constructor
  · refine (((hasDerivAt_id y).mul_const (tan (sw * π / 180))).sub (hc.const_mul (1 / 4))).congr_deriv ?_
    simp only [WingParameters.out_wing_leading_edge_sweep, tan_arctan, WingParameters.tan_sweep_le,
      WingParameters.out_wing_center_chord, WingParameters.center_chord]
    field_simp
    ring
  · refine (((hasDerivAt_id y).mul_const (tan (sw * π / 180))).add (hc.const_mul (3 / 4))).congr_deriv ?_
    simp only [WingParameters.tan_sweep_te, WingParameters.out_wing_center_chord, WingParameters.center_chord]
    rw [mul_div_assoc sw π 180]
    field_simp
    ring

/-- The root chord is the chord of the trapezoid at half the fuselage width used. -/
theorem root_chord_is_chord (S b l sw tc d : ℝ) (hS : S ≠ 0) (hb : b ≠ 0) (hl : 1 + l ≠ 0) :
    WingParameters.out_wing_root_chord S b (b ^ 2 / S) l sw tc d =
      chord (WingParameters.out_wing_center_chord S b l) l b (WingParameters.fhp S b l tc d / 2) := by
  simp only [WingParameters.out_wing_root_chord, WingParameters.root_chord, WingParameters.hp,
    WingParameters.tan_sweep_le, WingParameters.tan_sweep_te]
  generalize WingParameters.fhp S b l tc d = f
  simp only [chord, WingParameters.out_wing_center_chord, WingParameters.center_chord]
  rw [mul_div_assoc sw π 180]
  generalize tan (sw * (π / 180)) = t
  field_simp
  ring

example : (1500 : ℝ) ≠ 0 ∧ (120 : ℝ) ≠ 0 ∧ (1 + 0.3 : ℝ) ≠ 0 := by norm_num

/-- Wing loading and aspect ratio are met by the sized wing, and the aspect ratio computed from it by the FLOPS
geometry is the same. -/
theorem wing_size (m wl AR : ℝ) (hm : 0 < m) (hw : 0 < wl) (hA : 0 < AR) :
    WingSize.out_wing_area m wl * wl = m ∧
    WingSize.out_wing_span m wl AR ^ 2 = AR * WingSize.out_wing_area m wl ∧
    Comp.GeometryFlopsBasedWing.WingPrelim.out_wing_aspect_ratio (WingSize.out_wing_area m wl) 0
      (WingSize.out_wing_span m wl AR) = AR := by
  have h2 : WingSize.out_wing_span m wl AR ^ 2 = AR * WingSize.out_wing_area m wl := by
    simp only [WingSize.out_wing_span, WingSize.wingspan, WingSize.out_wing_area, WingSize.wing_area]
    rw [← sqrt_eq_rpow, sq_sqrt (by positivity)]
  refine ⟨?_, h2, ?_⟩
  · simp only [WingSize.out_wing_area, WingSize.wing_area]
    field_simp
  · simp only [Comp.GeometryFlopsBasedWing.WingPrelim.out_wing_aspect_ratio,
      Comp.GeometryFlopsBasedWing.WingPrelim.ar, h2]
    simp only [WingSize.out_wing_area, WingSize.wing_area]
    field_simp
    ring_nf
    exact mul_inv_cancel₀ hm.ne'

/-- The average thickness is the mean of the thickness at the fuselage side and at the tip, weighted with the
chords there; it lies between root and tip thickness. -/
theorem thickness_average (b l r d t : ℝ) (hb : 0 < b) (hl : 0 < l) (hl1 : l ≤ 1) (hd : 0 ≤ d) (hdb : d ≤ b)
    (c : ℝ) (hc : 0 < c) :
    WingParameters.out_wing_thickness_to_chord_unweighted b l r d t =
      ((r + (t - r) * (d / b)) * chord c l b (d / 2) + t * chord c l b (b / 2)) /
        (chord c l b (d / 2) + chord c l b (b / 2)) ∧
    min r t ≤ WingParameters.out_wing_thickness_to_chord_unweighted b l r d t ∧
    WingParameters.out_wing_thickness_to_chord_unweighted b l r d t ≤ max r t := by
  have x0 : 0 ≤ d / b := by positivity
  have x1 : d / b ≤ 1 := (div_le_one hb).2 hdb
  have e1 : chord c l b (d / 2) = c * (1 - d / b * (1 - l)) := by unfold chord; ring
  have e2 : chord c l b (b / 2) = c * l := by unfold chord; field_simp; ring
  simp only [WingParameters.out_wing_thickness_to_chord_unweighted, WingParameters.tc_ratio_avg]
  generalize d / b = x at *
  have hq : 0 < 1 - x * (1 - l) := by nlinarith
  have hden : 0 < 1 + l - x * (1 - l) := by linarith
  refine ⟨?_, ?_, ?_⟩
  · rw [e1, e2]
    have : c * (1 - x * (1 - l)) + c * l ≠ 0 := by
      have := mul_pos hc hden; nlinarith
    rw [div_eq_div_iff hden.ne' this]
    ring
  · rw [le_div_iff₀ hden]
    have h1 := min_le_left r t
    have h2 := min_le_right r t
    have a : min r t * (1 - x * (1 - l)) ≤ (r - x * (r - t)) * (1 - x * (1 - l)) := by
      apply mul_le_mul_of_nonneg_right _ hq.le
      nlinarith
    have := mul_le_mul_of_nonneg_left h2 hl.le
    nlinarith
  · rw [div_le_iff₀ hden]
    have h1 := le_max_left r t
    have h2 := le_max_right r t
    have a : (r - x * (r - t)) * (1 - x * (1 - l)) ≤ max r t * (1 - x * (1 - l)) := by
      apply mul_le_mul_of_nonneg_right _ hq.le
      nlinarith
    have := mul_le_mul_of_nonneg_left h2 hl.le
    nlinarith

example : (0 : ℝ) < 120 ∧ (0 : ℝ) < 0.3 ∧ (0.3 : ℝ) ≤ 1 ∧ (0 : ℝ) ≤ 13 ∧ (13 : ℝ) ≤ 120 ∧ (0 : ℝ) < 20 := by norm_num

/-- The exposed area of a transport is the part of the trapezoid outside the fuselage. -/
theorem exposed_area (v d b S l : ℝ) (hb : b ≠ 0) (hl : 1 + l ≠ 0) :
    ExposedWing_transport.out_wing_exposed_area v d b S l =
      2 * ∫ y in (ExposedWing_transport.b_fus v d)..(b / 2),
        chord (WingParameters.out_wing_center_chord S b l) l b y := by
  rw [integral_chord]
  simp only [ExposedWing_transport.out_wing_exposed_area, ExposedWing_transport.exp_wing_area,
    ExposedWing_transport.c_fus, ExposedWing_transport.tip_chord, ExposedWing_transport.root_chord_wing]
  generalize ExposedWing_transport.b_fus v d = f
  simp only [WingParameters.out_wing_center_chord, WingParameters.center_chord]
  field_simp
  ring

/-- The same for a blended wing body. -/
theorem exposed_area_bwb (v d h b S l : ℝ) (hb : b ≠ 0) (hl : 1 + l ≠ 0) :
    ExposedWing_blendedwingbody.out_wing_exposed_area v d h b S l =
      2 * ∫ y in (ExposedWing_blendedwingbody.b_fus v d h)..(b / 2),
        chord (WingParameters.out_wing_center_chord S b l) l b y := by
  rw [integral_chord]
  simp only [ExposedWing_blendedwingbody.out_wing_exposed_area, ExposedWing_blendedwingbody.exp_wing_area,
    ExposedWing_blendedwingbody.c_fus, ExposedWing_blendedwingbody.tip_chord,
    ExposedWing_blendedwingbody.root_chord_wing]
  generalize ExposedWing_blendedwingbody.b_fus v d h = f
  simp only [WingParameters.out_wing_center_chord, WingParameters.center_chord]
  field_simp
  ring

/-! ## Where the wing leaves the fuselage

The component uses `sqrt (1/4 - (1/2 - v)^2)` for the mounting height `v` in `[0.05, 0.95]` and cubic polynomials
outside. -/

section Mount
open ExposedWing_transport

theorem sqrt_const_pos : 0 < sqrt (19 / 400 : ℝ) := sqrt_pos.2 (by norm_num)
theorem sqrt_const_sq : sqrt (19 / 400 : ℝ) ^ 2 = 19 / 400 := sq_sqrt (by norm_num)

theorem dy_val : (dy : ℝ) = 180 / 19 * sqrt (19 / 400) := by
  have h := sqrt_const_sq
  rw [dy, div_eq_iff sqrt_const_pos.ne']
  linear_combination (-180 / 19) * h

theorem d2y_val : (d2y : ℝ) = -40000 / 361 * sqrt (19 / 400) := by
  have h := sqrt_const_sq
  rw [d2y, div_eq_iff (pow_pos sqrt_const_pos 3).ne']
  have : sqrt (19 / 400 : ℝ) * sqrt (19 / 400) ^ 3 = (19 / 400) ^ 2 := by
    linear_combination (sqrt (19 / 400 : ℝ) ^ 2 + 19 / 400) * h
  linear_combination (40000 / 361) * this

theorem low_val (v : ℝ) : y_2 v = sqrt (19 / 400) / 361 * (13820 * v - 188000 * v ^ 2 + 1120000 * v ^ 3) := by
  simp only [y_2, b1, c1, d1, dy_val, d2y_val, y]
  ring

theorem high_val (v : ℝ) : y_3 v = y_2 (1 - v) := by
  rw [low_val]
  have hd : (dy_2 : ℝ) = -(180 / 19 * sqrt (19 / 400)) := by
    rw [← dy_val, dy_2, dy]; ring
  simp only [y_3, a2, b2, c2, d2, hd, d2y_val, y]
  ring

/-- In the middle range the wing leaves a circular cross section. -/
theorem mount_circle (v d : ℝ) (h0 : 1 / 20 ≤ v) (h1 : v ≤ 19 / 20) :
    b_fus v d ^ 2 + (d * (1 / 2 - v)) ^ 2 = (d / 2) ^ 2 := by
  have : 0 ≤ 1 / 4 - (1 / 2 - v) ^ 2 := by nlinarith
  rw [b_fus, sqt_3, if_pos ⟨h0, h1⟩, sqt, mul_pow, sq_sqrt this]
  ring

/-- The cubic pieces vanish at the bottom and at the top, and join the middle piece with equal value, slope and
curvature. -/
theorem mount_joins :
    y_2 0 = 0 ∧ y_3 1 = 0 ∧ y_2 (1 / 20) = sqt (1 / 20) ∧ y_3 (19 / 20) = sqt (19 / 20) ∧
    dy_4 (1 / 20) = dy_3 (1 / 20) ∧ dy_5 (19 / 20) = dy_3 (19 / 20) ∧
    2 * c1 + 6 * d1 * (1 / 20) = d2y ∧ 2 * c2 + 6 * d2 * (19 / 20) = d2y := by
  have hd : (dy_2 : ℝ) = -(180 / 19 * sqrt (19 / 400)) := by
    rw [← dy_val, dy_2, dy]; ring
  have e : (1 / 4 - (1 / 2 - 1 / 20) ^ 2 : ℝ) = 19 / 400 := by norm_num
  have e' : (1 / 4 - (1 / 2 - 19 / 20) ^ 2 : ℝ) = 19 / 400 := by norm_num
  refine ⟨?_, ?_, ?_, ?_, ?_, ?_, ?_, ?_⟩
  · rw [low_val]; ring
  · rw [high_val, low_val]; ring
  · rw [low_val, sqt, e]; ring
  · rw [high_val, low_val, sqt, e']; ring
  · rw [dy_3, diff, e]
    have : (1 / 2 - 1 / 20) / sqrt (19 / 400 : ℝ) = 180 / 19 * sqrt (19 / 400) := by
      rw [← dy_val, dy]; norm_num
    rw [this]
    simp only [dy_4, b1, c1, d1, dy_val, d2y_val, y]
    ring
  · rw [dy_3, diff, e']
    have : (1 / 2 - 19 / 20) / sqrt (19 / 400 : ℝ) = -(180 / 19 * sqrt (19 / 400)) := by
      rw [← hd, dy_2]; norm_num
    rw [this]
    simp only [dy_5, b2, c2, d2, hd, d2y_val, y]
    ring
  · simp only [c1]; ring
  · simp only [c2]; ring

/-- The second derivative of the middle piece at the joints is the constant the cubic pieces are fitted to. -/
theorem sqt_curvature (v : ℝ) (h0 : 0 < v) (h1 : v < 1) :
    HasDerivAt sqt (dy_3 v) v ∧ HasDerivAt dy_3 (-(1 / 4) / sqrt (1 / 4 - (1 / 2 - v) ^ 2) ^ 3) v := by
  have hp : 0 < 1 / 4 - (1 / 2 - v) ^ 2 := by nlinarith
  have hin : HasDerivAt (fun v : ℝ => 1 / 4 - (1 / 2 - v) ^ 2) (2 * (1 / 2 - v)) v := by
    refine ((((hasDerivAt_id v).const_sub (1 / 2)).pow 2).const_sub (1 / 4)).congr_deriv ?_
    simp
  have hs : HasDerivAt sqt (dy_3 v) v := by
    refine (hin.sqrt hp.ne').congr_deriv ?_
    rw [dy_3, diff, mul_div_mul_left _ _ two_ne_zero]
  refine ⟨hs, ?_⟩
  have hq : sqt v ≠ 0 := (sqrt_pos.2 hp).ne'
  have h := (((hasDerivAt_id v).const_sub (1 / 2)).div hs hq)
  refine h.congr_deriv ?_
  have hsq : sqt v ^ 2 = 1 / 4 - (1 / 2 - v) ^ 2 := sq_sqrt hp.le
  have e3 : dy_3 v = (1 / 2 - v) / sqt v := rfl
  have e4 : sqrt (1 / 4 - (1 / 2 - v) ^ 2) = sqt v := rfl
  rw [e3, e4]
  simp only [id]
  rw [div_eq_div_iff (pow_ne_zero _ hq) (pow_ne_zero _ hq)]
  field_simp
  rw [show (1 - 2 * v) ^ 2 = 1 - 4 * sqt v ^ 2 by rw [hsq]; ring]
  ring

/-- The whole function stays between zero and one half: the wing leaves the fuselage inside its width. -/
theorem mount_range (v : ℝ) (h0 : 0 ≤ v) (h1 : v ≤ 1) : 0 ≤ sqt_3 v ∧ sqt_3 v ≤ 1 / 2 := by
  have hs : sqrt (19 / 400 : ℝ) ≤ 1 / 2 := by
    rw [sqrt_le_left (by norm_num)]; norm_num
  have key : ∀ w : ℝ, 0 ≤ w → w ≤ 1 / 20 → 0 ≤ y_2 w ∧ y_2 w ≤ 1 / 2 := by
    intro w w0 w1
    rw [low_val]
    have p0 : 0 ≤ 13820 * w - 188000 * w ^ 2 + 1120000 * w ^ 3 := by
      have : 0 ≤ 13820 - 188000 * w + 1120000 * w ^ 2 := by nlinarith [sq_nonneg (w - 47 / 560)]
      nlinarith
    have p1 : 13820 * w - 188000 * w ^ 2 + 1120000 * w ^ 3 ≤ 361 := by
      have : 0 ≤ 1120000 * w ^ 2 - 132000 * w + 7220 := by nlinarith [sq_nonneg (w - 33 / 560)]
      nlinarith
    have := sqrt_const_pos
    constructor
    · positivity
    · have := mul_le_mul_of_nonneg_left p1 (by positivity : 0 ≤ sqrt (19 / 400 : ℝ) / 361)
      linarith
  rw [sqt_3]
  split_ifs with h
  · refine ⟨sqrt_nonneg _, ?_⟩
    rw [sqt, sqrt_le_left (by norm_num)]
    nlinarith [sq_nonneg (1 / 2 - v)]
  · rw [sqt_2]
    split_ifs with h'
    · exact key v h'.1 h'.2.le
    · rw [high_val]
      apply key
      · linarith
      · by_contra hc
        push Not at hc
        rcases lt_or_ge v (1 / 20) with hv | hv
        · exact h' ⟨h0, hv⟩
        · exact h ⟨hv, by linarith⟩

/-- The whole function is differentiable inside the interval with the slope the component uses, also at the joints. -/
theorem mount_slope (v : ℝ) (h0 : 0 < v) (h1 : v < 1) : HasDerivAt sqt_3 (d_sqt_2 v) v := by
  obtain ⟨-, -, jl, jh, sl, sh, -, -⟩ := mount_joins
  have hlow : ∀ w, HasDerivAt y_2 (dy_4 w) w := by
    intro w
    have := ((((hasDerivAt_id w).const_mul b1).const_add 0).add ((hasDerivAt_pow 2 w).const_mul c1)).add
      ((hasDerivAt_pow 3 w).const_mul d1)
    refine this.congr_deriv ?_
    simp only [dy_4]; norm_num; ring
  have hhigh : ∀ w, HasDerivAt y_3 (dy_5 w) w := by
    intro w
    have := ((((hasDerivAt_id w).const_mul b2).const_add a2).add ((hasDerivAt_pow 2 w).const_mul c2)).add
      ((hasDerivAt_pow 3 w).const_mul d2)
    refine this.congr_deriv ?_
    simp only [dy_5]; norm_num; ring
  have elow : ∀ w, 0 ≤ w → w ≤ 1 / 20 → sqt_3 w = y_2 w := by
    intro w a b
    rcases b.eq_or_lt with rfl | b
    · rw [jl, sqt_3, if_pos (by norm_num)]
    · rw [sqt_3, if_neg (by intro h; linarith [h.1]), sqt_2, if_pos ⟨a, b⟩]
  have emid : ∀ w, 1 / 20 ≤ w → w ≤ 19 / 20 → sqt_3 w = sqt w := by
    intro w a b
    rw [sqt_3, if_pos ⟨a, b⟩]
  have ehigh : ∀ w, 19 / 20 ≤ w → sqt_3 w = y_3 w := by
    intro w a
    rcases a.eq_or_lt with rfl | a
    · rw [jh, sqt_3, if_pos (by norm_num)]
    · rw [sqt_3, if_neg (by intro h; linarith [h.2]), sqt_2, if_neg (by intro h; linarith [h.2])]
  have glue : ∀ (f g : ℝ → ℝ) (m s : ℝ), HasDerivAt f s m → HasDerivAt g s m →
      (∀ᶠ w in nhds m, w ≤ m → sqt_3 w = f w) → (∀ᶠ w in nhds m, m ≤ w → sqt_3 w = g w) →
      HasDerivAt sqt_3 s m := by
    intro f g m s hf hg ef eg
    have a : HasDerivWithinAt sqt_3 s (Set.Iic m) m :=
      hf.hasDerivWithinAt.congr_of_eventuallyEq (eventually_nhdsWithin_iff.2 ef) (ef.self_of_nhds le_rfl)
    have b : HasDerivWithinAt sqt_3 s (Set.Ici m) m :=
      hg.hasDerivWithinAt.congr_of_eventuallyEq (eventually_nhdsWithin_iff.2 eg) (eg.self_of_nhds le_rfl)
    have := a.union b
    rwa [Set.Iic_union_Ici, hasDerivWithinAt_univ] at this
  rcases lt_trichotomy v (1 / 20) with h | h | h
  · rw [d_sqt_2, if_neg (by intro h'; linarith [h'.1]), d_sqt, if_pos ⟨h0.le, h⟩]
    exact (hlow v).congr_of_eventuallyEq
      (by filter_upwards [Ioo_mem_nhds h0 h] with w hw using elow w hw.1.le hw.2.le)
  · subst h
    rw [d_sqt_2, if_pos (by norm_num)]
    refine glue y_2 sqt _ _ (sl ▸ hlow _) (sqt_curvature _ h0 h1).1 ?_ ?_
    · filter_upwards [Ioi_mem_nhds h0] with w hw a using elow w (le_of_lt hw) a
    · filter_upwards [Iio_mem_nhds (show (1 / 20 : ℝ) < 19 / 20 by norm_num)] with w hw a using emid w a (le_of_lt hw)
  · rcases lt_trichotomy v (19 / 20) with h' | h' | h'
    · rw [d_sqt_2, if_pos ⟨h.le, h'.le⟩]
      exact (sqt_curvature v h0 h1).1.congr_of_eventuallyEq
        (by filter_upwards [Ioo_mem_nhds h h'] with w hw using emid w hw.1.le hw.2.le)
    · subst h'
      rw [d_sqt_2, if_pos (by norm_num)]
      refine glue sqt y_3 _ _ (sqt_curvature _ h0 h1).1 (sh ▸ hhigh _) ?_ ?_
      · filter_upwards [Ioi_mem_nhds (show (1 / 20 : ℝ) < 19 / 20 by norm_num)] with w hw a using emid w (le_of_lt hw) a
      · filter_upwards with w a using ehigh w a
    · rw [d_sqt_2, if_neg (by intro h''; linarith [h''.2]), d_sqt, if_neg (by intro h''; linarith [h''.2])]
      exact (hhigh v).congr_of_eventuallyEq
        (by filter_upwards [Ioi_mem_nhds h'] with w hw using ehigh w (le_of_lt hw))

/-- The exposed area is between nothing and the whole wing area when the fuselage is not wider than the span. -/
theorem exposed_area_range (v d b S l : ℝ) (h0 : 0 ≤ v) (h1 : v ≤ 1) (hd : 0 ≤ d) (hdb : d ≤ b) (hb : 0 < b)
    (hS : 0 ≤ S) (hl : 0 ≤ l) :
    0 ≤ out_wing_exposed_area v d b S l ∧ out_wing_exposed_area v d b S l ≤ S := by
  obtain ⟨q0, q1⟩ := mount_range v h0 h1
  have f0 : 0 ≤ b_fus v d := mul_nonneg hd q0
  have f1 : b_fus v d ≤ b / 2 := by
    have := mul_le_mul_of_nonneg_left q1 hd
    rw [b_fus]; linarith
  rw [exposed_area v d b S l hb.ne' (by positivity), integral_chord]
  generalize b_fus v d = f at *
  simp only [WingParameters.out_wing_center_chord, WingParameters.center_chord]
  have e : 2 * (2 * S / b / (1 + l) * (b / 2 - f) - 2 * S / b / (1 + l) * (1 - l) / b * ((b / 2) ^ 2 - f ^ 2)) =
      S * ((b / 2 - f) * (4 * b - 4 * (1 - l) * (b / 2 + f)) / (b ^ 2 * (1 + l))) := by
    have : 1 + l ≠ 0 := by positivity
    field_simp
    ring
  rw [e]
  have hk : 0 ≤ 4 * b - 4 * (1 - l) * (b / 2 + f) := by
    have : (1 - l) * (b / 2 + f) ≤ 1 * b := by
      apply mul_le_mul <;> linarith
    linarith
  constructor
  · exact mul_nonneg hS (div_nonneg (mul_nonneg (by linarith) hk) (by positivity))
  · have : (b / 2 - f) * (4 * b - 4 * (1 - l) * (b / 2 + f)) / (b ^ 2 * (1 + l)) ≤ 1 := by
      rw [div_le_one (by positivity)]
      nlinarith [mul_nonneg f0 (show 0 ≤ b - f by linarith), mul_nonneg (mul_nonneg f0 f0) hl, mul_nonneg f0 f0]
    calc _ ≤ S * 1 := mul_le_mul_of_nonneg_left this hS
      _ = S := mul_one S

example : (0 : ℝ) ≤ 0.02 ∧ (0.02 : ℝ) ≤ 1 ∧ (0 : ℝ) ≤ 13 ∧ (13 : ℝ) ≤ 120 ∧ (0 : ℝ) < 120 ∧ (0 : ℝ) ≤ 1500 ∧
    (0 : ℝ) ≤ 0.3 := by norm_num

end Mount

end Verif.Wing
