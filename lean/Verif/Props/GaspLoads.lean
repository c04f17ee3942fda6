import Verif.Model.GaspLoads
import Verif.Props.GaspDrag

/-!
# Design speeds, ultimate load factor and landing gear of GASP: theorems (C124)
-/

namespace Verif.GaspLoads
open Real

/-! ## The two sigmoids -/

theorem sig_add {x x0 mu : ℝ} (hmu : mu ≠ 0) (h1 : -320 < (x - x0) / mu) (h2 : (x - x0) / mu < 320) :
    sigX x x0 (-mu) + sigX x x0 mu = 1 := by
  have h3 : (x - x0) / (-mu) > -320 := by rw [div_neg]; linarith
  have e : -(x - x0) / -mu = -(-(x - x0) / mu) := by field_simp
  simp only [sigX, gt_iff_lt, if_pos h1, if_pos h3]
  rw [e, exp_neg]
  have : 0 < exp (-(x - x0) / mu) := exp_pos _
  field_simp
  ring

theorem dsig_neg {x x0 mu : ℝ} (hmu : mu ≠ 0) (h1 : -320 < (x - x0) / mu) (h2 : (x - x0) / mu < 320) :
    dsigX x x0 (-mu) = -dsigX x x0 mu := by
  have h3 : (x - x0) / (-mu) > -320 := by rw [div_neg]; linarith
  have e : -(x - x0) / -mu = -(-(x - x0) / mu) := by field_simp
  simp only [dsigX, gt_iff_lt, if_pos h1, if_pos h3]
  rw [e, exp_neg]
  have : 0 < exp (-(x - x0) / mu) := exp_pos _
  field_simp
  ring

theorem dsig_pos {x x0 mu : ℝ} (hmu : 0 < mu) (h1 : -320 < (x - x0) / mu) : 0 < dsigX x x0 mu := by
  simp only [dsigX, gt_iff_lt, if_pos h1]
  positivity

/-- The ratio is within the range in which both sigmoids are computed. -/
def InRange (x : ℝ) : Prop := -2.2 < x ∧ x < 4.2

theorem InRange.lo {x : ℝ} (h : InRange x) : -320 < (x - 1) / 0.01 := by
  rw [lt_div_iff₀ (by norm_num)]; linarith [h.1]

theorem InRange.hi {x : ℝ} (h : InRange x) : (x - 1) / 0.01 < 320 := by
  rw [div_lt_iff₀ (by norm_num)]; linarith [h.2]

theorem InRange.one : InRange 1 := by norm_num [InRange]

theorem sig_one {x mu : ℝ} : sigX x x mu = 1 / 2 := by
  simp [sigX]; norm_num

theorem InRange.hasDeriv {f : ℝ → ℝ} {f' x : ℝ} (hf : HasDerivAt f f' x) (h : InRange (f x)) :
    HasDerivAt (fun t => sigX (f t) 1 0.01) (f' * dsigX (f x) 1 0.01) x ∧
      HasDerivAt (fun t => sigX (f t) 1 (-0.01)) (-(f' * dsigX (f x) 1 0.01)) x := by
  constructor
  · have := hasDerivAt_sigX (g := fun _ => 1) hf (hasDerivAt_const x (1 : ℝ)) (mu := 0.01) (by norm_num) h.lo.ne'
    simpa using this
  · have h3 : (f x - 1) / (-0.01) ≠ -320 := by rw [div_neg]; have := h.hi; intro e; linarith
    have := hasDerivAt_sigX (g := fun _ => 1) hf (hasDerivAt_const x (1 : ℝ)) (mu := -0.01) (by norm_num) h3
    rw [dsig_neg (by norm_num) h.lo h.hi] at this
    refine this.congr_deriv ?_
    ring

/-- The derivative of the smooth minimum and maximum with `dquotient`s as written in the code. -/
theorem mixMin_deriv {f g : ℝ → ℝ} {f' g' x : ℝ} (hf : HasDerivAt f f' x) (hg : HasDerivAt g g' x) (h0 : g x ≠ 0)
    (h : InRange (f x / g x)) :
    HasDerivAt (fun t => f t * sigX (f t / g t) 1 (-0.01) + g t * sigX (f t / g t) 1 0.01)
      (f' * sigX (f x / g x) 1 (-0.01) + f x * dsigX (f x / g x) 1 0.01 * dquot (g x - f x) (g x) (g' - f') g'
        + g' * sigX (f x / g x) 1 0.01 + g x * dsigX (f x / g x) 1 0.01 * dquot (f x - g x) (g x) (f' - g') g') x := by
  obtain ⟨h1, h2⟩ := InRange.hasDeriv (hf.fun_div hg h0) h
  refine ((hf.fun_mul h2).fun_add (hg.fun_mul h1)).congr_deriv ?_
  simp only [dquot]
  field_simp
  ring

theorem mixMax_deriv {f g : ℝ → ℝ} {f' g' x : ℝ} (hf : HasDerivAt f f' x) (hg : HasDerivAt g g' x) (h0 : g x ≠ 0)
    (h : InRange (f x / g x)) :
    HasDerivAt (fun t => mix (f t) (g t))
      (g' * sigX (f x / g x) 1 (-0.01) + g x * dsigX (f x / g x) 1 0.01 * dquot (g x - f x) (g x) (g' - f') g'
        + f' * sigX (f x / g x) 1 0.01 + f x * dsigX (f x / g x) 1 0.01 * dquot (f x - g x) (g x) (f' - g') g') x := by
  obtain ⟨h1, h2⟩ := InRange.hasDeriv (hf.fun_div hg h0) h
  refine ((hg.fun_mul h2).fun_add (hf.fun_mul h1)).congr_deriv ?_
  simp only [dquot]
  field_simp
  ring

/-! ## Speeds -/

/-- Outputs exist exactly for categories from 0. -/
theorem speeds_error (catd : ℤ) (ab sm : Bool) (w mph : ℝ) :
    speeds catd ab sm w mph = .error .unboundLocal ↔ catd < 0 := by
  unfold speeds; split <;> simp [*]

theorem speeds_ok (catd : ℤ) (ab sm : Bool) (w mph : ℝ) (h : 0 ≤ catd) :
    speeds catd ab sm w mph = .ok (speedsVal catd ab sm w mph) := if_neg (not_lt.2 h)

/-- Without smoothing the cruise speed is limited from above and the dive speed from below, and the
airspeed limit is below the dive speed. -/
theorem speeds_limits (catd : ℤ) (ab : Bool) (w mph : ℝ) (hm : 0 < mph) :
    let o := speedsVal catd ab false w mph
    o.velC ≤ mph / 1.15 ∧ mph / 1.15 ≤ o.dive ∧ 0 < o.airspeed ∧ o.airspeed < o.dive ∧
      (catd < 3 → o.velC = min (vcmin catd ab w) (0.9 * (mph / 1.15)) ∧ o.dive = max (vdcof catd ab w * o.velC) (mph / 1.15)) := by
  have hp : 0 < mph / 1.15 := by positivity
  generalize hs : mph / 1.15 = s at *
  by_cases h3 : catd < 3
  · have e1 : cruise catd ab false w mph = min (vcmin catd ab w) (0.9 * s) := by
      simp only [cruise, limC, hs]; simp only [Bool.false_eq_true, if_false]
      split
      · rw [min_eq_right]; linarith
      · rw [min_eq_left]; linarith
    have e2 : dive catd ab false w mph = max (vdcof catd ab w * cruise catd ab false w mph) s := by
      simp only [dive, limD, hs]; simp only [Bool.false_eq_true, if_false]
      split
      · rw [max_eq_right]; linarith
      · rw [max_eq_left]; linarith
    simp only [speedsVal, if_pos h3, e1, e2]
    have := min_le_right (vcmin catd ab w) (0.9 * s)
    have h4 := le_max_right (vdcof catd ab w * min (vcmin catd ab w) (0.9 * s)) s
    refine ⟨by linarith, h4, by linarith, by linarith, fun _ => ⟨trivial, trivial⟩⟩
  · simp only [speedsVal, if_neg h3, hs]
    split <;> refine ⟨le_rfl, by dsimp only; linarith, hp, by dsimp only; linarith, fun hh => absurd hh (by simpa using h3)⟩

/-- With smoothing the speeds are means of the two limits. -/
theorem speeds_smooth (v m : ℝ) (h : InRange (v / m)) (d s : ℝ) (h' : InRange (d / s)) :
    (∃ θ, 0 ≤ θ ∧ θ ≤ 1 ∧ limC true v m = (1 - θ) * v + θ * m) ∧
      ∃ θ, 0 ≤ θ ∧ θ ≤ 1 ∧ limD true d s = (1 - θ) * s + θ * d := by
  have key : ∀ x, InRange x → 0 ≤ sigX x 1 0.01 ∧ sigX x 1 0.01 ≤ 1 ∧ sigX x 1 (-0.01) = 1 - sigX x 1 0.01 := by
    intro x hx
    have h1 := sig_add (x := x) (x0 := 1) (mu := 0.01) (by norm_num) hx.lo hx.hi
    have h2 : 0 ≤ sigX x 1 0.01 := by unfold sigX; split <;> positivity
    have h3 : 0 ≤ sigX x 1 (-0.01) := by unfold sigX; split <;> positivity
    exact ⟨h2, by linarith, by linarith⟩
  obtain ⟨a, b, c⟩ := key _ h
  obtain ⟨a', b', c'⟩ := key _ h'
  refine ⟨⟨_, a, b, ?_⟩, _, a', b', ?_⟩
  · simp only [limC, if_true, c]; ring
  · simp only [limD, if_true, c']; ring

theorem vccof_deriv {w : ℝ → ℝ} {dw x : ℝ} (catd : ℤ) (ab : Bool) (hw : HasDerivAt w dw x) :
    HasDerivAt (fun t => vccof catd ab (w t)) (dvccof catd ab * dw) x := by
  unfold vccof dvccof
  split <;> split
  · refine (((hw.sub_const 20).const_mul 0.0925).const_sub 36).congr_deriv ?_; ring
  · simpa using hasDerivAt_const x (36 : ℝ)
  · refine (((hw.sub_const 20).const_mul 0.055).const_sub 33).congr_deriv ?_; ring
  · simpa using hasDerivAt_const x (33 : ℝ)

theorem vdcof_deriv {w : ℝ → ℝ} {dw x : ℝ} (catd : ℤ) (ab : Bool) (hw : HasDerivAt w dw x) :
    HasDerivAt (fun t => vdcof catd ab (w t)) (dvdcof catd ab * dw) x := by
  unfold vdcof dvdcof
  split_ifs
  · refine (((hw.sub_const 20).const_mul 0.000625).const_sub 1.4).congr_deriv ?_; ring
  · simpa using hasDerivAt_const x (1.4 : ℝ)
  · refine (((hw.sub_const 20).const_mul 0.001875).const_sub 1.5).congr_deriv ?_; ring
  · simpa using hasDerivAt_const x (1.5 : ℝ)
  · refine (((hw.sub_const 20).const_mul 0.0025).const_sub 1.55).congr_deriv ?_; ring
  · simpa using hasDerivAt_const x (1.55 : ℝ)

theorem vcmin_deriv {w : ℝ → ℝ} {dw x : ℝ} (catd : ℤ) (ab : Bool) (hw : HasDerivAt w dw x) (h : 0 < w x) :
    HasDerivAt (fun t => vcmin catd ab (w t)) (dvcmin catd ab (w x) dw) x := by
  have h2 : HasDerivAt (fun t => w t ^ (1 / 2 : ℝ)) (dw * (1 / 2) * w x ^ (1 / 2 - 1 : ℝ)) x :=
    hw.rpow_const (Or.inl h.ne')
  refine ((vccof_deriv catd ab hw).fun_mul h2).congr_deriv ?_
  rw [dvcmin, show (1 / 2 - 1 : ℝ) = -1 / 2 by norm_num]
  ring

/-- The choice by the limit is away from its kink, or smooth and in range. -/
def Away (sm : Bool) (a b : ℝ) : Prop := if sm then b ≠ 0 ∧ InRange (a / b) else a ≠ b

theorem limC_deriv {f g : ℝ → ℝ} {f' g' x : ℝ} (sm : Bool) (hf : HasDerivAt f f' x) (hg : HasDerivAt g g' x)
    (h : Away sm (f x) (g x)) :
    HasDerivAt (fun t => limC sm (f t) (g t)) (limCW sm (f x) (g x) f' + limCM sm (f x) (g x) g') x := by
  cases sm with
  | true =>
    simp only [Away, if_true] at h
    refine (mixMin_deriv hf hg h.1 h.2).congr_deriv ?_
    have := h.1
    simp only [limCW, limCM, if_true, dquot]
    field_simp
    ring
  | false =>
    simp only [Away, Bool.false_eq_true, if_false] at h
    simp only [limC, limCW, limCM, Bool.false_eq_true, if_false, gt_iff_lt]
    have := hasDerivAt_ite_lt (inst := fun t => Classical.propDecidable _) hg.continuousAt hf.continuousAt h.symm (fun _ => hg)
      (fun _ => hf)
    refine (this.congr_deriv ?_).congr_of_eventuallyEq (Filter.Eventually.of_forall fun t => ?_)
    · split_ifs <;> simp
    · simp

theorem limD_deriv {f g : ℝ → ℝ} {f' g' x : ℝ} (sm : Bool) (hf : HasDerivAt f f' x) (hg : HasDerivAt g g' x)
    (h : Away sm (f x) (g x)) :
    HasDerivAt (fun t => limD sm (f t) (g t)) (jLimD sm (f x) (g x) f' g') x := by
  cases sm with
  | true =>
    simp only [Away, if_true] at h
    exact mixMax_deriv hf hg h.1 h.2
  | false =>
    simp only [Away, Bool.false_eq_true, if_false] at h
    simp only [limD, jLimD, Bool.false_eq_true, if_false]
    have := hasDerivAt_ite_lt (inst := fun t => Classical.propDecidable _) hf.continuousAt hg.continuousAt h (fun _ => hg)
      (fun _ => hf)
    refine (this.congr_deriv ?_).congr_of_eventuallyEq (Filter.Eventually.of_forall fun t => ?_)
    · split_ifs <;> rfl
    · simp

/-- The conditions under which the speeds have derivatives. -/
structure Regular (catd : ℤ) (ab sm : Bool) (w mph : ℝ) : Prop where
  pos : 0 < w
  c : catd < 3 → Away sm (vcmin catd ab w) (0.9 * (mph / 1.15))
  d : catd < 3 → Away sm (vdcof catd ab w * cruise catd ab sm w mph) (mph / 1.15)

/-- The three outputs have the given derivatives. -/
def HasDerivs (f : ℝ → Speeds) (f' : Speeds) (x : ℝ) : Prop :=
  HasDerivAt (fun t => (f t).airspeed) f'.airspeed x ∧ HasDerivAt (fun t => (f t).velC) f'.velC x ∧
    HasDerivAt (fun t => (f t).factor) f'.factor x ∧ HasDerivAt (fun t => (f t).dive) f'.dive x

/-- All entries by the wing loading are the derivatives, except for category 1 without blended wing body. -/
theorem speeds_load_partial {w : ℝ → ℝ} {dw x : ℝ} (bwb : Bool) (catd : ℤ) (ab sm : Bool) (mph : ℝ)
    (hw : HasDerivAt w dw x) (h : Regular catd ab sm (w x) mph) (hb : catd ≠ 1 ∨ bwb = true) :
    HasDerivs (fun t => speedsVal catd ab sm (w t) mph) (jW bwb catd ab sm (w x) mph dw) x := by
  by_cases h3 : catd < 3
  · have hn : ¬(catd = 1 ∧ bwb = false) := by rintro ⟨a, b⟩; rcases hb with c | c <;> simp_all
    have h1 : HasDerivAt (fun t => cruise catd ab sm (w t) mph) (cruiseW bwb catd ab sm (w x) mph dw) x := by
      have := limC_deriv sm (vcmin_deriv catd ab hw h.pos) (hasDerivAt_const x (0.9 * (mph / 1.15))) (h.c h3)
      refine this.congr_deriv ?_
      rw [cruiseW, if_neg hn]
      simp [limCM, dquot]
    have h2 : HasDerivAt (fun t => dive catd ab sm (w t) mph) (diveW bwb catd ab sm (w x) mph dw) x :=
      limD_deriv sm ((vdcof_deriv catd ab hw).fun_mul h1) (hasDerivAt_const x (mph / 1.15)) (h.d h3)
    simp only [HasDerivs, speedsVal, jW, if_pos h3]
    exact ⟨h2.const_mul _, h1, hasDerivAt_const _ _, h2⟩
  · simp only [HasDerivs, speedsVal, jW, if_neg h3]
    split <;> exact ⟨hasDerivAt_const _ _, hasDerivAt_const _ _, hasDerivAt_const _ _, hasDerivAt_const _ _⟩

/-- All entries by the structural speed are the derivatives, with the same exception. -/
theorem speeds_struct_partial (bwb : Bool) (catd : ℤ) (ab sm : Bool) (w mph : ℝ) (h : Regular catd ab sm w mph)
    (hb : catd ≠ 1 ∨ bwb = true) :
    HasDerivs (fun t => speedsVal catd ab sm w t) (jM bwb catd ab sm w mph) mph := by
  have hs : HasDerivAt (fun t : ℝ => t / 1.15) (1 / 1.15) mph := (hasDerivAt_id' mph).div_const _
  by_cases h3 : catd < 3
  · have hn : ¬(catd = 1 ∧ bwb = false) := by rintro ⟨a, b⟩; rcases hb with c | c <;> simp_all
    have h1 : HasDerivAt (fun t => cruise catd ab sm w t) (cruiseM bwb catd ab sm w mph) mph := by
      have hm : HasDerivAt (fun t : ℝ => 0.9 * (t / 1.15)) (0.9 / 1.15) mph := (hs.const_mul 0.9).congr_deriv (by norm_num)
      have := limC_deriv sm (hasDerivAt_const mph (vcmin catd ab w)) hm (h.c h3)
      refine this.congr_deriv ?_
      rw [cruiseM, if_neg hn]
      simp [limCW]
    have h2 : HasDerivAt (fun t => dive catd ab sm w t) (diveM bwb catd ab sm w mph) mph :=
      limD_deriv sm (h1.const_mul _) hs (h.d h3)
    simp only [HasDerivs, speedsVal, jM, if_pos h3]
    exact ⟨h2.const_mul _, h1, hasDerivAt_const _ _, h2⟩
  · simp only [HasDerivs, speedsVal, jM, if_neg h3]
    split <;> exact ⟨hs, hs.congr_deriv (by norm_num), hasDerivAt_const _ _, hs.const_mul _⟩

/-- Blended wing body: all entries by gross mass and exposed area are the derivatives. -/
theorem bwb_speeds (catd : ℤ) (ab sm : Bool) (g s mph : ℝ) (hs : s ≠ 0) (h : Regular catd ab sm (g / s) mph) :
    HasDerivs (fun t => speedsVal catd ab sm (t / s) mph) (jW true catd ab sm (g / s) mph (1 / s)) g ∧
      HasDerivs (fun t => speedsVal catd ab sm (g / t) mph) (jW true catd ab sm (g / s) mph (-g / s ^ 2)) s := by
  constructor
  · exact speeds_load_partial true catd ab sm mph ((hasDerivAt_id' g).div_const s) h (Or.inr rfl)
  · have h2 : HasDerivAt (fun t => g / t) (-g / s ^ 2) s :=
      ((hasDerivAt_const s g).fun_div (hasDerivAt_id' s) hs).congr_deriv (by ring)
    exact speeds_load_partial true catd ab sm mph h2 h (Or.inr rfl)

example : Regular 0 true false 100 500 := by
  have e : vcmin 0 true 100 = 286 := by
    simp only [vcmin, vccof]
    rw [show (100 : ℝ) = 10 ^ (2 : ℝ) by norm_num, ← rpow_mul (by norm_num)]; norm_num
  refine ⟨by norm_num, fun _ => ?_, fun _ => ?_⟩
  · simp [Away, e]; norm_num
  · simp only [Away, cruise, limC, e, vdcof]
    norm_num

example : Regular 2 false true 1 36 := by
  have e : vcmin 2 false 1 = 36 := by simp [vcmin, vccof]
  refine ⟨by norm_num, fun _ => ?_, fun _ => ?_⟩
  · simp only [Away, e, InRange]; norm_num
  · have h0 : 0 ≤ sigX (36 / (0.9 * (36 / 1.15))) 1 0.01 := by unfold sigX; split <;> positivity
    have h1 : sigX (36 / (0.9 * (36 / 1.15))) 1 (-0.01) + sigX (36 / (0.9 * (36 / 1.15))) 1 0.01 = 1 :=
      sig_add (by norm_num) (by norm_num) (by norm_num)
    have h2 : 0 ≤ sigX (36 / (0.9 * (36 / 1.15))) 1 (-0.01) := by unfold sigX; split <;> positivity
    simp only [Away, cruise, limC, e, vdcof, InRange, if_true]
    norm_num at h0 h1 h2 ⊢
    constructor <;> linarith

/-- Category 1: both entries of the cruise speed are wrong whenever the speed is below its limit. -/
theorem speeds_category_violated (ab : Bool) (w mph : ℝ) (hw : 0 < w) (hlt : vcmin 1 ab w < 0.9 * (mph / 1.15))
    (hne : dvcmin 1 ab w 1 ≠ 0) :
    ¬ HasDerivAt (fun t => (speedsVal 1 ab false t mph).velC) (jW false 1 ab false w mph 1).velC w ∧
      ¬ HasDerivAt (fun t => (speedsVal 1 ab false w t).velC) (jM false 1 ab false w mph).velC mph := by
  have hA : Away false (vcmin 1 ab w) (0.9 * (mph / 1.15)) := by simpa [Away] using hlt.ne
  constructor <;> intro hc
  · have := limC_deriv false (vcmin_deriv 1 ab (hasDerivAt_id' w) hw) (hasDerivAt_const w (0.9 * (mph / 1.15))) hA
    have e := hc.unique this
    simp [jW, cruiseW, limCW, limCM, not_lt.2 hlt.le] at e
    exact hne e.symm
  · have hs : HasDerivAt (fun t : ℝ => 0.9 * (t / 1.15)) (0.9 * (1 / 1.15)) mph :=
      ((hasDerivAt_id' mph).div_const _).const_mul _
    have := limC_deriv false (hasDerivAt_const mph (vcmin 1 ab w)) hs hA
    have e := hc.unique this
    simp [jM, cruiseM, limCW, limCM, not_lt.2 hlt.le] at e
    norm_num at e

/-- The case of a small wing loading meets the hypotheses for every large structural speed. -/
theorem speeds_category_reachable (w mph : ℝ) (hw : 0 < w) (hm : 33 * w ^ (1 / 2 : ℝ) < 0.9 * (mph / 1.15)) :
    vcmin 1 false w < 0.9 * (mph / 1.15) ∧ dvcmin 1 false w 1 ≠ 0 := by
  constructor
  · simpa [vcmin, vccof] using hm
  · have : 0 < w ^ (-1 / 2 : ℝ) := by positivity
    simp only [dvcmin, dvccof, vccof]
    simp [this.ne']
    norm_num

example : ∃ w mph : ℝ, 0 < w ∧ 33 * w ^ (1 / 2 : ℝ) < 0.9 * (mph / 1.15) := ⟨1, 100, by norm_num, by norm_num⟩

end Verif.GaspLoads
