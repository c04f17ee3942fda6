import Verif.Model.WettedArea
import Verif.Lemmas.VecDeriv
import Mathlib.Analysis.SpecialFunctions.Sqrt
import Mathlib.Tactic.FieldSimp
import Mathlib.Tactic.Ring
import Mathlib.Tactic.Linarith
import Mathlib.Tactic.LinearCombination
import Mathlib.Analysis.Real.Pi.Bounds

/-! ## C100: wetted areas of a transport -/

namespace Verif.WettedArea
open Real Filter Topology

theorem set_get (i : In) (w : Wrt) : i.set w (i.get w) = i := by cases w <;> rfl

/-- The derivative of one input by another. -/
def dl (a w : Wrt) : ℝ := if a = w then 1 else 0

theorem get_deriv (i : In) (a w : Wrt) :
    HasDerivAt (fun t => (i.set w t).get a) (dl a w) (i.get w) := by
  by_cases h : a = w
  · subst h
    have : (fun t => (i.set a t).get a) = fun t => t := by funext t; cases a <;> rfl
    rw [this, dl, if_pos rfl]
    exact hasDerivAt_id _
  · have : (fun t => (i.set w t).get a) = fun _ => i.get a := by
      funext t; cases a <;> cases w <;> first | exact absurd rfl h | rfl
    rw [this, dl, if_neg h]
    exact hasDerivAt_const _ _

/-! ### Derivatives -/

/-- The wing exists, and so do the tails which are there. -/
structure Ok (o : Opt) (i : In) : Prop where
  span : i.span ≠ 0
  TR : 1 + i.TR ≠ 0
  hArea : 0 < i.hArea
  hAR : 0 < i.hAR
  hTR : 1 + i.hTR ≠ 0
  vArea : 0 < o.nvTails → 0 < i.vArea
  vAR : 0 < o.nvTails → 0 < i.vAR
  vTR : 0 < o.nvTails → 1 + i.vTR ≠ 0

theorem xdx_get (o : Opt) (i : In) : xdx o i = i.get (fusVar o) := by
  rcases o with ⟨r, _, _, _⟩
  cases r <;> rfl

theorem xdx_deriv (o : Opt) (i : In) (w : Wrt) :
    HasDerivAt (fun t => xdx o (i.set w t)) (dl (fusVar o) w) (i.get w) :=
  hd_congr (get_deriv i (fusVar o) w) (fun t => xdx_get o _) rfl

theorem fusVar_cases (o : Opt) : fusVar o = .refDiam ∨ fusVar o = .maxWidth := by
  rcases o with ⟨r, _, _, _⟩
  cases r
  · exact Or.inl rfl
  · exact Or.inr rfl

theorem surf_deriv (i : In) (a w : Wrt) :
    HasDerivAt (fun t => surfScaler ((i.set w t).get a)) (if w = a then tcScaler else 0)
      (i.get w) := by
  refine hd_congr (((get_deriv i a w).const_mul tcScaler).add_const 2) (fun t => rfl) ?_
  by_cases h : w = a
  · subst h; simp [dl]
  · rw [if_neg h, dl, if_neg (fun e => h e.symm)]; ring

theorem spanht_deriv {i : In} (ha : 0 < i.hArea) (hr : 0 < i.hAR) (w : Wrt) :
    HasDerivAt (fun t => spanht (i.set w t)) (dSpanht i w) (i.get w) := by
  have hp : 0 < i.hAR * i.hArea := mul_pos hr ha
  have q := ((get_deriv i .hAR w).mul (get_deriv i .hArea w)).sqrt (by
    show (i.set w (i.get w)).hAR * (i.set w (i.get w)).hArea ≠ 0
    rw [set_get]; exact hp.ne')
  refine hd_congr q (fun t => rfl) ?_
  show dSpanht i w = (dl .hAR w * (i.set w (i.get w)).hArea
    + (i.set w (i.get w)).hAR * dl .hArea w) /
      (2 * √((i.set w (i.get w)).hAR * (i.set w (i.get w)).hArea))
  rw [set_get]
  have hs : √(i.hAR * i.hArea) ≠ 0 := (Real.sqrt_pos.2 hp).ne'
  cases w <;> simp [dSpanht, dl, mul_comm i.hArea i.hAR]
  all_goals field_simp

theorem croot_deriv {i : In} (h1 : i.span ≠ 0) (h2 : 1 + i.TR ≠ 0) (w : Wrt) :
    HasDerivAt (fun t => croot (i.set w t)) (dCroot i w) (i.get w) := by
  have q := (((get_deriv i .area w).sub (get_deriv i .glove w)).mul_const 2).div
    (((get_deriv i .TR w).const_add 1).mul (get_deriv i .span w)) (by
      show (1 + (i.set w (i.get w)).TR) * (i.set w (i.get w)).span ≠ 0
      rw [set_get]; exact mul_ne_zero h2 h1)
  refine hd_congr q (fun t => rfl) ?_
  show dCroot i w = ((dl .area w - dl .glove w) * 2
    * ((1 + (i.set w (i.get w)).TR) * (i.set w (i.get w)).span)
    - ((i.set w (i.get w)).area - (i.set w (i.get w)).glove) * 2
      * (dl .TR w * (i.set w (i.get w)).span + (1 + (i.set w (i.get w)).TR) * dl .span w))
      / ((1 + (i.set w (i.get w)).TR) * (i.set w (i.get w)).span) ^ 2
  rw [set_get]
  cases w <;> simp [dCroot, dl]
  all_goals field_simp
  all_goals ring

theorem crotm_deriv {o : Opt} {i : In} (h1 : i.span ≠ 0) (w : Wrt) :
    HasDerivAt (fun t => crotm o (i.set w t)) (dCrotm o i w) (i.get w) := by
  have S := get_deriv i .span w
  have T := get_deriv i .TR w
  have q := ((((S.div_const 2).sub ((xdx_deriv o i w).div_const 2)).div (S.div_const 2) (by
      show (i.set w (i.get w)).span / 2 ≠ 0
      rw [set_get]; exact div_ne_zero h1 two_ne_zero)).mul (T.const_sub 1)).add T
  refine hd_congr q (fun t => rfl) ?_
  show dCrotm o i w = ((dl .span w / 2 - dl (fusVar o) w / 2) * ((i.set w (i.get w)).span / 2)
    - ((i.set w (i.get w)).span / 2 - xdx o (i.set w (i.get w)) / 2) * (dl .span w / 2))
      / ((i.set w (i.get w)).span / 2) ^ 2 * (1 - (i.set w (i.get w)).TR)
    + ((i.set w (i.get w)).span / 2 - xdx o (i.set w (i.get w)) / 2)
      / ((i.set w (i.get w)).span / 2) * -dl .TR w + dl .TR w
  rw [set_get]
  rcases fusVar_cases o with e | e <;> cases w <;> simp [dCrotm, dl, e]
  all_goals field_simp
  all_goals ring

theorem crootb_deriv {o : Opt} {i : In} (h1 : i.span ≠ 0) (h2 : 1 + i.TR ≠ 0) (w : Wrt) :
    HasDerivAt (fun t => croot (i.set w t) * crotm o (i.set w t)) (dCrootb o i w) (i.get w) := by
  refine hd_congr ((croot_deriv h1 h2 w).mul (crotm_deriv h1 w)) (fun t => rfl) ?_
  rw [set_get]
  have a : croot i = 2 * (i.area - i.glove) / (i.span * (1 + i.TR)) := by
    rw [croot]; congr 1 <;> ring
  have b : crotm o i = (1 - i.TR) * (i.span / 2 - xdx o i / 2) / (i.span / 2) + i.TR := by
    rw [crotm]; ring
  rw [a, b, dCrootb]

theorem sqrt_ratio {a r : ℝ} (ha : 0 < a) (hr : 0 < r) : √(r / a) = √(a * r) / a := by
  rw [eq_div_iff ha.ne']
  have : a = √(a ^ 2) := (Real.sqrt_sq ha.le).symm
  rw [this, ← Real.sqrt_mul (by positivity), ← this]
  congr 1
  field_simp

theorem crthtb_deriv {o : Opt} {i : In} (ha : 0 < i.hArea) (hr : 0 < i.hAR) (ht : 1 + i.hTR ≠ 0)
    (w : Wrt) : HasDerivAt (fun t => crthtb o (i.set w t)) (dCrthtb o i w) (i.get w) := by
  have B := spanht_deriv ha hr w
  have hp : 0 < i.hAR * i.hArea := mul_pos hr ha
  have hb : 0 < spanht i := Real.sqrt_pos.2 hp
  have A := get_deriv i .hArea w
  have T := get_deriv i .hTR w
  have q1 := (A.const_mul 2).div (B.mul (T.const_add 1)) (by
    show spanht (i.set w (i.get w)) * (1 + (i.set w (i.get w)).hTR) ≠ 0
    rw [set_get]; exact mul_ne_zero hb.ne' ht)
  have q2 := ((((B.div_const 2).sub ((xdx_deriv o i w).div_const 4)).div (B.div_const 2) (by
      show spanht (i.set w (i.get w)) / 2 ≠ 0
      rw [set_get]; exact div_ne_zero hb.ne' two_ne_zero)).mul (T.const_sub 1))
  have q := (q1.add q2).add T
  have ev : ∀ᶠ t in 𝓝 (i.get w), crthtb o (i.set w t)
      = 2 * (i.set w t).hArea / (spanht (i.set w t) * (1 + (i.set w t).hTR))
        + ((spanht (i.set w t) / 2 - xdx o (i.set w t) / 4) / (spanht (i.set w t) / 2))
          * (1 - (i.set w t).hTR) + (i.set w t).hTR := by
    have h0 : 0 < spanht (i.set w (i.get w)) := by rw [set_get]; exact hb
    filter_upwards [B.continuousAt.eventually_const_lt h0] with t h
    rw [crthtb, if_pos h]
  refine (hd_congr q (fun t => rfl) ?_ : HasDerivAt _ _ _).congr_of_eventuallyEq ev
  show dCrthtb o i w = (2 * dl .hArea w * (spanht (i.set w (i.get w)) * (1 + (i.set w (i.get w)).hTR))
    - 2 * (i.set w (i.get w)).hArea * (dSpanht i w * (1 + (i.set w (i.get w)).hTR)
      + spanht (i.set w (i.get w)) * dl .hTR w))
      / (spanht (i.set w (i.get w)) * (1 + (i.set w (i.get w)).hTR)) ^ 2
    + (((dSpanht i w / 2 - dl (fusVar o) w / 4) * (spanht (i.set w (i.get w)) / 2)
      - (spanht (i.set w (i.get w)) / 2 - xdx o (i.set w (i.get w)) / 4) * (dSpanht i w / 2))
        / (spanht (i.set w (i.get w)) / 2) ^ 2 * (1 - (i.set w (i.get w)).hTR)
      + (spanht (i.set w (i.get w)) / 2 - xdx o (i.set w (i.get w)) / 4)
        / (spanht (i.set w (i.get w)) / 2) * -dl .hTR w) + dl .hTR w
  rw [set_get]
  have hsq : √(i.hArea * i.hAR) = spanht i := by rw [spanht, mul_comm]
  have hs2 : i.hAR * i.hArea = spanht i ^ 2 := (Real.sq_sqrt hp.le).symm
  have hrat : √(i.hAR / i.hArea) = spanht i / i.hArea := by rw [sqrt_ratio ha hr, hsq]
  have hAR : i.hAR = spanht i ^ 2 / i.hArea := by
    rw [eq_div_iff ha.ne']; exact hs2
  simp only [dCrthtb, dSpanht, hsq, hrat, if_pos hb]
  generalize spanht i = b at *
  generalize xdx o i = x
  rcases fusVar_cases o with e | e <;> cases w <;> simp [dl, e]
  all_goals try rw [hAR]
  all_goals have hb' := hb.ne'
  all_goals have ha' := ha.ne'
  all_goals field_simp
  all_goals ring

theorem spanvt_deriv {o : Opt} {i : In} (ha : 0 < o.nvTails → 0 < i.vArea)
    (hr : 0 < o.nvTails → 0 < i.vAR) (w : Wrt) :
    HasDerivAt (fun t => spanvt o (i.set w t)) (dSpanvt o i w) (i.get w) := by
  by_cases hn : 0 < o.nvTails
  · have hp : 0 < i.vArea * i.vAR := mul_pos (ha hn) (hr hn)
    have q := ((get_deriv i .vArea w).mul (get_deriv i .vAR w)).sqrt (by
      show (i.set w (i.get w)).vArea * (i.set w (i.get w)).vAR ≠ 0
      rw [set_get]; exact hp.ne')
    refine hd_congr q (fun t => by rw [spanvt, if_pos hn]; rfl) ?_
    show dSpanvt o i w = (dl .vArea w * (i.set w (i.get w)).vAR
      + (i.set w (i.get w)).vArea * dl .vAR w) /
        (2 * √((i.set w (i.get w)).vArea * (i.set w (i.get w)).vAR))
    rw [set_get]
    have hs : √(i.vArea * i.vAR) ≠ 0 := (Real.sqrt_pos.2 hp).ne'
    cases w <;> simp [dSpanvt, dl, hn]
    all_goals field_simp
  · have e : dSpanvt o i w = 0 := if_neg hn
    rw [e]
    exact hd_congr (hasDerivAt_const _ (0 : ℝ)) (fun t => by rw [spanvt, if_neg hn]) rfl

theorem crotvt_deriv {o : Opt} {i : In} (ha : 0 < o.nvTails → 0 < i.vArea)
    (hr : 0 < o.nvTails → 0 < i.vAR) (ht : 0 < o.nvTails → 1 + i.vTR ≠ 0) (w : Wrt) :
    HasDerivAt (fun t => crotvt o (i.set w t)) (dCrotvt o i w) (i.get w) := by
  by_cases hn : 0 < o.nvTails
  · have B := spanvt_deriv ha hr w
    have hp : 0 < i.vArea * i.vAR := mul_pos (ha hn) (hr hn)
    have es : spanvt o i = √(i.vArea * i.vAR) := by rw [spanvt, if_pos hn]
    have hb : 0 < spanvt o i := by rw [es]; exact Real.sqrt_pos.2 hp
    have T := get_deriv i .vTR w
    have q := ((get_deriv i .vArea w).const_mul 2).div (B.mul (T.const_add 1)) (by
      show spanvt o (i.set w (i.get w)) * (1 + (i.set w (i.get w)).vTR) ≠ 0
      rw [set_get]; exact mul_ne_zero hb.ne' (ht hn))
    have ev : ∀ᶠ t in 𝓝 (i.get w), crotvt o (i.set w t)
        = 2 * (i.set w t).vArea / (spanvt o (i.set w t) * (1 + (i.set w t).vTR)) := by
      have h0 : 0 < spanvt o (i.set w (i.get w)) := by rw [set_get]; exact hb
      filter_upwards [B.continuousAt.eventually_const_lt h0] with t h
      rw [crotvt, if_pos hn, if_pos h]
    refine (hd_congr q (fun t => rfl) ?_ : HasDerivAt _ _ _).congr_of_eventuallyEq ev
    show dCrotvt o i w = (2 * dl .vArea w
      * (spanvt o (i.set w (i.get w)) * (1 + (i.set w (i.get w)).vTR))
      - 2 * (i.set w (i.get w)).vArea * (dSpanvt o i w * (1 + (i.set w (i.get w)).vTR)
        + spanvt o (i.set w (i.get w)) * dl .vTR w))
        / (spanvt o (i.set w (i.get w)) * (1 + (i.set w (i.get w)).vTR)) ^ 2
    rw [set_get]
    have hs2 : i.vArea * i.vAR = spanvt o i ^ 2 := by rw [es]; exact (Real.sq_sqrt hp.le).symm
    have hAR : i.vAR = spanvt o i ^ 2 / i.vArea := by
      rw [eq_div_iff (ha hn).ne', mul_comm]; exact hs2
    have hT := ht hn
    have ha' := (ha hn).ne'
    have hb' := hb.ne'
    simp only [dCrotvt, dSpanvt, if_pos hn, ← es, if_pos hb]
    generalize spanvt o i = b at *
    cases w <;> simp [dl]
    all_goals try rw [hAR]
    all_goals field_simp
  · have e : dCrotvt o i w = 0 := by
      show (if 0 < o.nvTails then _ else 0) = (0 : ℝ)
      rw [if_neg hn]
    rw [e]
    exact hd_congr (hasDerivAt_const _ (1 : ℝ)) (fun t => by rw [crotvt, if_neg hn]) rfl

/-- All derivatives of `PrelimWettedArea` of a transport are right, eleven outputs by fifteen inputs. -/
theorem prelim_partials {o : Opt} {i : In} (h : Ok o i) (w : Wrt) :
    HasDerivAt (fun t => (prelim o (i.set w t)).croot) (part o i w).croot (i.get w) ∧
    HasDerivAt (fun t => (prelim o (i.set w t)).crootb) (part o i w).crootb (i.get w) ∧
    HasDerivAt (fun t => (prelim o (i.set w t)).crotm) (part o i w).crotm (i.get w) ∧
    HasDerivAt (fun t => (prelim o (i.set w t)).crthtb) (part o i w).crthtb (i.get w) ∧
    HasDerivAt (fun t => (prelim o (i.set w t)).spanht) (part o i w).spanht (i.get w) ∧
    HasDerivAt (fun t => (prelim o (i.set w t)).xmulth) (part o i w).xmulth (i.get w) ∧
    HasDerivAt (fun t => (prelim o (i.set w t)).crotvt) (part o i w).crotvt (i.get w) ∧
    HasDerivAt (fun t => (prelim o (i.set w t)).spanvt) (part o i w).spanvt (i.get w) ∧
    HasDerivAt (fun t => (prelim o (i.set w t)).xmultv) (part o i w).xmultv (i.get w) ∧
    HasDerivAt (fun t => (prelim o (i.set w t)).xdx) (part o i w).xdx (i.get w) ∧
    HasDerivAt (fun t => (prelim o (i.set w t)).xmult) (part o i w).xmult (i.get w) := by
  refine ⟨croot_deriv h.span h.TR w, crootb_deriv h.span h.TR w, crotm_deriv h.span w,
    crthtb_deriv h.hArea h.hAR h.hTR w, spanht_deriv h.hArea h.hAR w, surf_deriv i .hTC w,
    crotvt_deriv h.vArea h.vAR h.vTR w, spanvt_deriv h.vArea h.vAR w, surf_deriv i .vTC w, ?_,
    surf_deriv i .TC w⟩
  refine hd_congr (xdx_deriv o i w) (fun t => rfl) ?_
  show (if w = fusVar o then 1 else 0 : ℝ) = if fusVar o = w then 1 else 0
  simp only [eq_comm]

/-! ### The canard -/

/-- Above zero area the derivatives of the canard are right. -/
theorem canard_partials_partial {a tc sc : ℝ} (h : 0 < a) :
    HasDerivAt (fun t => canWet t tc sc) (canPart a tc sc).1 a ∧
    HasDerivAt (fun t => canWet a t sc) (canPart a tc sc).2.1 tc ∧
    HasDerivAt (fun t => canWet a tc t) (canPart a tc sc).2.2 sc := by
  refine ⟨?_, ?_, ?_⟩
  · refine (hd_congr ((hasDerivAt_id a).const_mul (sc * surfScaler tc)) (fun t => rfl) ?_ :
      HasDerivAt (fun t => sc * surfScaler tc * t) _ a).congr_of_eventuallyEq ?_
    · simp [canPart]
    · filter_upwards [eventually_gt_nhds h] with t ht
      rw [canWet, if_neg (not_le.2 ht)]
  · refine affine_deriv fun t => ?_
    rw [canWet, canWet, if_neg h.not_ge, if_neg h.not_ge]
    simp only [canPart, surfScaler]; ring
  · refine affine_deriv fun t => ?_
    rw [canWet, canWet, if_neg h.not_ge, if_neg h.not_ge]
    simp only [canPart, surfScaler]; ring

/-- Below zero area the output is the constant zero, but the derivatives are those of the other
branch. -/
theorem canard_violated {a tc sc : ℝ} (h : a < 0) (htc : 0 ≤ tc) (hsc : 0 < sc) :
    HasDerivAt (fun t => canWet t tc sc) 0 a ∧ 0 < (canPart a tc sc).1 ∧
    HasDerivAt (fun t => canWet a tc t) 0 sc ∧ (canPart a tc sc).2.2 < 0 := by
  have p : 0 < surfScaler tc := by unfold surfScaler tcScaler; positivity
  refine ⟨?_, mul_pos hsc p, ?_, mul_neg_of_pos_of_neg p h⟩
  · refine (hasDerivAt_const a (0 : ℝ)).congr_of_eventuallyEq ?_
    filter_upwards [eventually_lt_nhds h] with t ht
    rw [canWet, if_pos (le_of_lt ht)]
  · exact hd_congr (hasDerivAt_const sc (0 : ℝ)) (fun t => by rw [canWet, if_pos h.le]) rfl

/-! ### Units -/

/-- The same aircraft in a unit of length which is `c` times smaller. -/
def In.scale (c : ℝ) (i : In) : In :=
  { i with
    refDiam := c * i.refDiam, maxWidth := c * i.maxWidth, hArea := c ^ 2 * i.hArea,
    vArea := c ^ 2 * i.vArea, area := c ^ 2 * i.area, glove := c ^ 2 * i.glove, span := c * i.span }

/-- See `In.scale`. -/
def Rest.scale (c : ℝ) (r : Rest) : Rest :=
  { r with length := c * r.length, canArea := c ^ 2 * r.canArea }

theorem xdx_scale (o : Opt) (i : In) (c : ℝ) : xdx o (i.scale c) = c * xdx o i := by
  rcases o with ⟨r, _, _, _⟩
  cases r <;> rfl

theorem sqrt_scale {c a : ℝ} (hc : 0 < c) : √(c ^ 2 * a) = c * √a := by
  rw [Real.sqrt_mul (by positivity), Real.sqrt_sq hc.le]

/-- Lengths become `c` times and ratios stay, except for the chord of the horizontal tail. -/
theorem prelim_scale_partial (o : Opt) (i : In) {c : ℝ} (hc : 0 < c) (hv : 0 < o.nvTails) :
    (prelim o (i.scale c)).croot = c * (prelim o i).croot ∧
    (prelim o (i.scale c)).crotm = (prelim o i).crotm ∧
    (prelim o (i.scale c)).crootb = c * (prelim o i).crootb ∧
    (prelim o (i.scale c)).spanht = c * (prelim o i).spanht ∧
    (prelim o (i.scale c)).spanvt = c * (prelim o i).spanvt ∧
    (prelim o (i.scale c)).crotvt = c * (prelim o i).crotvt ∧
    (prelim o (i.scale c)).xdx = c * (prelim o i).xdx := by
  have c0 := hc.ne'
  have h1 : croot (i.scale c) = c * croot i := by
    show (c ^ 2 * i.area - c ^ 2 * i.glove) * 2 / ((1 + i.TR) * (c * i.span)) = _
    rw [croot]
    have : (1 + i.TR) * (c * i.span) = c * ((1 + i.TR) * i.span) := by ring
    rw [this]
    generalize (1 + i.TR) * i.span = k
    by_cases hk : k = 0
    · simp [hk]
    · field_simp
  have h2 : crotm o (i.scale c) = crotm o i := by
    rw [crotm, xdx_scale, crotm]
    show ((c * i.span / 2 - c * xdx o i / 2) / (c * i.span / 2)) * (1 - i.TR) + i.TR = _
    have e1 : c * i.span / 2 - c * xdx o i / 2 = c * (i.span / 2 - xdx o i / 2) := by ring
    have e2 : c * i.span / 2 = c * (i.span / 2) := by ring
    rw [e1, e2, mul_div_mul_left _ _ c0]
  have h3 : spanvt o (i.scale c) = c * spanvt o i := by
    rw [spanvt, spanvt, if_pos hv, if_pos hv]
    show √(c ^ 2 * i.vArea * i.vAR) = _
    rw [mul_assoc, sqrt_scale hc]
  refine ⟨h1, h2, ?_, ?_, h3, ?_, xdx_scale o i c⟩
  · show croot (i.scale c) * crotm o (i.scale c) = c * (croot i * crotm o i)
    rw [h1, h2]; ring
  · show √(i.hAR * (c ^ 2 * i.hArea)) = c * √(i.hAR * i.hArea)
    rw [show i.hAR * (c ^ 2 * i.hArea) = c ^ 2 * (i.hAR * i.hArea) by ring, sqrt_scale hc]
  · show crotvt o (i.scale c) = c * crotvt o i
    rw [crotvt, crotvt, if_pos hv, if_pos hv, h3]
    by_cases hb : 0 < spanvt o i
    · rw [if_pos (mul_pos hc hb), if_pos hb]
      show 2 * (c ^ 2 * i.vArea) / (c * spanvt o i * (1 + i.vTR)) = _
      rw [show c * spanvt o i * (1 + i.vTR) = c * (spanvt o i * (1 + i.vTR)) by ring]
      generalize spanvt o i * (1 + i.vTR) = k
      by_cases hk : k = 0
      · simp [hk]
      · field_simp
    · rw [if_neg hb, if_neg (fun h => hb (pos_of_mul_pos_right h hc.le)), mul_zero]

/-- The wetted areas of wing and tails become `c²` times: they do not depend on the unit. -/
theorem wing_tail_scale (o : Opt) (i : In) (r : Rest) {c : ℝ} (hc : 0 < c) (hv : 0 < o.nvTails) :
    wingWet o (i.scale c) (r.scale c) (prelim o (i.scale c))
      = c ^ 2 * wingWet o i r (prelim o i) ∧
    hWet o (i.scale c) (r.scale c) (prelim o (i.scale c)) = c ^ 2 * hWet o i r (prelim o i) ∧
    vWet (i.scale c) (r.scale c) (prelim o (i.scale c)) = c ^ 2 * vWet i r (prelim o i) ∧
    canWet (r.scale c).canArea r.canTC r.canScaler
      = c ^ 2 * canWet r.canArea r.canTC r.canScaler := by
  obtain ⟨h1, -, h3, -, -, -, h7⟩ := prelim_scale_partial o i hc hv
  refine ⟨?_, ?_, ?_, ?_⟩
  · rw [wingWet, h1, h3, h7, wingWet]
    show r.wingScaler * surfScaler i.TC * (c ^ 2 * i.area - _)
      = c ^ 2 * (r.wingScaler * surfScaler i.TC * _)
    ring
  · rw [hWet, hWet]
    split
    · show r.hScaler * surfScaler i.hTC * (c ^ 2 * i.hArea)
        = c ^ 2 * (r.hScaler * surfScaler i.hTC * i.hArea)
      ring
    · show r.hScaler * surfScaler i.hTC * (c ^ 2 * i.hArea) * _
        = c ^ 2 * (r.hScaler * surfScaler i.hTC * i.hArea * _)
      have : (r.scale c).mount = r.mount := rfl
      rw [this]
      ring
  · show r.vScaler * surfScaler i.vTC * (c ^ 2 * i.vArea)
      = c ^ 2 * (r.vScaler * surfScaler i.vTC * i.vArea)
    ring
  · show canWet (c ^ 2 * r.canArea) _ _ = _
    rw [canWet, canWet]
    by_cases h : r.canArea ≤ 0
    · rw [if_pos h, if_pos (mul_nonpos_of_nonneg_of_nonpos (by positivity) h), mul_zero]
    · have : 0 < r.canArea := not_le.1 h
      rw [if_neg h, if_neg (not_le.2 (by positivity))]
      ring

/-- The chord of the horizontal tail adds a length and a ratio: it depends on the unit of length
whenever the tail is not exactly of the size at which both cancel. -/
theorem crthtb_scale_violated {o : Opt} {i : In} {c : ℝ} (hc : 0 < c) (c1 : c ≠ 1)
    (hb : 0 < spanht i) :
    (prelim o (i.scale c)).crthtb = c * (prelim o i).crthtb ↔
      xdx o i * (1 - i.hTR) = 2 * spanht i := by
  have hs : spanht (i.scale c) = c * spanht i := by
    show √(i.hAR * (c ^ 2 * i.hArea)) = c * √(i.hAR * i.hArea)
    rw [show i.hAR * (c ^ 2 * i.hArea) = c ^ 2 * (i.hAR * i.hArea) by ring, sqrt_scale hc]
  have c0 := hc.ne'
  have b0 := hb.ne'
  have k1 : crthtb o (i.scale c) = c * (2 * i.hArea / (spanht i * (1 + i.hTR)))
      + (1 - xdx o i * (1 - i.hTR) / (2 * spanht i)) := by
    rw [crthtb, hs, if_pos (mul_pos hc hb), xdx_scale]
    show 2 * (c ^ 2 * i.hArea) / (c * spanht i * (1 + i.hTR))
      + ((c * spanht i / 2 - c * xdx o i / 4) / (c * spanht i / 2)) * (1 - i.hTR) + i.hTR = _
    have e : 2 * (c ^ 2 * i.hArea) / (c * spanht i * (1 + i.hTR))
        = c * (2 * i.hArea / (spanht i * (1 + i.hTR))) := by
      rw [show c * spanht i * (1 + i.hTR) = c * (spanht i * (1 + i.hTR)) by ring]
      generalize spanht i * (1 + i.hTR) = k
      by_cases hk : k = 0
      · simp [hk]
      · field_simp
    rw [e]
    field_simp
    ring
  have k2 : crthtb o i = 2 * i.hArea / (spanht i * (1 + i.hTR))
      + (1 - xdx o i * (1 - i.hTR) / (2 * spanht i)) := by
    rw [crthtb, if_pos hb, add_assoc]
    congr 1
    field_simp
    ring
  show crthtb o (i.scale c) = c * crthtb o i ↔ _
  rw [k1, k2]
  constructor
  · intro h
    have z : (1 - c) * (1 - xdx o i * (1 - i.hTR) / (2 * spanht i)) = 0 := by linear_combination h
    rcases mul_eq_zero.1 z with q | q
    · exact absurd (by linarith) c1
    · have : xdx o i * (1 - i.hTR) / (2 * spanht i) = 1 := by linarith
      rwa [div_eq_one_iff_eq (by positivity)] at this
  · intro h
    have : xdx o i * (1 - i.hTR) / (2 * spanht i) = 1 := by
      rw [h]; exact div_self (by positivity)
    rw [this]; ring

/-- Without vertical tail the chord of the missing tail is one, whatever the unit, and a missing tail
with a thickness makes the fuselage smaller. -/
theorem no_tail_violated {o : Opt} {i : In} {r : Rest} (hv : o.nvTails = 0) (hn : 0 < o.nFus)
    (hd : 0 < i.refDiam) (hs : 0 < r.fusScaler) {t : ℝ} (ht : i.vTC < t) :
    (prelim o i).crotvt = 1 ∧
    fusWet o { i with vTC := t } r (prelim o { i with vTC := t })
      < fusWet o i r (prelim o i) := by
  have hv' : ¬ 0 < o.nvTails := by omega
  have e : ∀ j, crotvt o j = 1 := fun j => by rw [crotvt, if_neg hv']
  refine ⟨e i, ?_⟩
  rw [fusWet, fusWet, if_pos ⟨hn, hd⟩, if_pos ⟨hn, hd⟩]
  refine mul_lt_mul_of_pos_left ?_ hs
  have a1 : (prelim o { i with vTC := t }).crotvt = 1 := e _
  have a2 : (prelim o i).crotvt = 1 := e _
  rw [a1, a2]
  have : fusAdj 1 i.vTC < fusAdj 1 t := by unfold fusAdj; linarith
  show π * i.refDiam ^ 2 * (r.length / i.refDiam - 17 / 10) - 2 * fusAdj (prelim o i).crootb i.TC
    - 2 * fusAdj (prelim o i).crthtb i.hTC * (1 - r.mount) - fusAdj 1 t < _
  linarith

/-! ### Signs -/

/-- The chord at the side of the body lies between root and tip chord. -/
theorem crootb_between {o : Opt} {i : In} (hs : 0 < i.span) (hx : 0 ≤ xdx o i)
    (hx' : xdx o i ≤ i.span) (ht : 0 ≤ i.TR) (ht' : i.TR ≤ 1) (ha : i.glove ≤ i.area) :
    i.TR * croot i ≤ (prelim o i).crootb ∧ (prelim o i).crootb ≤ croot i := by
  have hc : 0 ≤ croot i := by
    unfold croot
    exact div_nonneg (by linarith) (by positivity)
  have e : crotm o i = 1 - xdx o i / i.span * (1 - i.TR) := by
    rw [crotm]; field_simp; ring
  have f0 : 0 ≤ xdx o i / i.span := div_nonneg hx hs.le
  have f1 : xdx o i / i.span ≤ 1 := (div_le_one hs).2 hx'
  have m0 : i.TR ≤ crotm o i := by rw [e]; nlinarith
  have m1 : crotm o i ≤ 1 := by rw [e]; nlinarith
  show i.TR * croot i ≤ croot i * crotm o i ∧ croot i * crotm o i ≤ croot i
  constructor
  · rw [mul_comm]; exact mul_le_mul_of_nonneg_left m0 hc
  · exact mul_le_of_le_one_right hc m1

/-- The buried part of the wing is at most the whole: with one fuselage not wider than the wing and no
glove the wetted area of the wing is not negative. -/
theorem wing_nonneg {o : Opt} {i : In} {r : Rest} (hn : o.nFus = 1) (hs : 0 < i.span)
    (hx : 0 ≤ xdx o i) (hx' : xdx o i ≤ i.span) (ht : 0 ≤ i.TR) (ht' : i.TR ≤ 1)
    (ha : 0 ≤ i.area) (hg : i.glove = 0) (hw : 0 ≤ r.wingScaler) (htc : 0 ≤ i.TC) :
    0 ≤ wingWet o i r (prelim o i) := by
  have k : 0 ≤ r.wingScaler * (prelim o i).xmult := by
    refine mul_nonneg hw ?_
    show 0 ≤ surfScaler i.TC
    unfold surfScaler tcScaler; positivity
  rw [wingWet]
  refine mul_nonneg k ?_
  show 0 ≤ i.area - (o.nFus * xdx o i / 2) * (croot i + croot i * crotm o i)
  have e : crotm o i = 1 - xdx o i / i.span * (1 - i.TR) := by
    rw [crotm]; field_simp; ring
  have f0 : 0 ≤ xdx o i / i.span := div_nonneg hx hs.le
  have f1 : xdx o i / i.span ≤ 1 := (div_le_one hs).2 hx'
  have e2 : croot i * xdx o i = 2 * i.area / (1 + i.TR) * (xdx o i / i.span) := by
    rw [croot, hg]; field_simp; ring
  rw [hn, e]
  have : ((1 : ℕ) * xdx o i / 2 : ℝ) * (croot i + croot i * (1 - xdx o i / i.span * (1 - i.TR)))
      = (croot i * xdx o i) * (1 - xdx o i / i.span * (1 - i.TR) / 2) := by
    push_cast; ring
  rw [this, e2]
  set f := xdx o i / i.span
  have d : 0 < 1 + i.TR := by linarith
  have : i.area - 2 * i.area / (1 + i.TR) * f * (1 - f * (1 - i.TR) / 2)
      = i.area / (1 + i.TR) * (1 + i.TR - 2 * f + f ^ 2 * (1 - i.TR)) := by
    field_simp; ring
  rw [this]
  refine mul_nonneg (div_nonneg ha d.le) ?_
  nlinarith [mul_nonneg ht (sub_nonneg.2 f1), sq_nonneg (1 - f), mul_nonneg (mul_nonneg ht f0)
    (sub_nonneg.2 f1), mul_nonneg ht (mul_nonneg (sub_nonneg.2 f1) (by linarith : 0 ≤ 1 + f))]

/-! ### Cases which meet the hypotheses -/

/-- A transport. -/
noncomputable def exIn : In := ⟨12, 12, 300, 4, 1 / 3, 1 / 10, 200, 2, 1 / 2, 1 / 10, 1400, 0, 120,
  1 / 4, 1 / 8⟩

example : Ok ⟨false, 1, 1, 0⟩ exIn := by
  refine ⟨?_, ?_, ?_, ?_, ?_, fun _ => ?_, fun _ => ?_, fun _ => ?_⟩ <;> norm_num [exIn]

example : 0 < spanht exIn ∧ xdx ⟨false, 1, 1, 0⟩ exIn * (1 - exIn.hTR) ≠ 2 * spanht exIn := by
  have h : 0 < spanht exIn := Real.sqrt_pos.2 (by norm_num [exIn])
  have h2 : 30 ≤ spanht exIn := Real.le_sqrt_of_sq_le (by norm_num [exIn])
  refine ⟨h, ?_⟩
  have : xdx ⟨false, 1, 1, 0⟩ exIn * (1 - exIn.hTR) = 8 := by norm_num [xdx, exIn]
  rw [this]
  intro e
  linarith

example : 0 < exIn.span ∧ 0 ≤ xdx ⟨false, 1, 1, 0⟩ exIn ∧ xdx ⟨false, 1, 1, 0⟩ exIn ≤ exIn.span ∧
    0 ≤ exIn.TR ∧ exIn.TR ≤ 1 ∧ exIn.glove ≤ exIn.area ∧ exIn.glove = 0 ∧ 0 ≤ exIn.TC := by
  norm_num [xdx, exIn]

/-- A tail on top of the fin is wetted in full; each fuselage engine hides 6.3 % of a tail on the body in addition to
18.5 %; between them the area is linear in the mounting. -/
theorem hWet_mount {o : Opt} (h : o.redux = false) (i : In) (r : Rest) (p : Pre) :
    hWet o i { r with mount := 1 } p = r.hScaler * p.xmulth * i.hArea ∧
    hWet o i { r with mount := 0 } p = r.hScaler * p.xmulth * i.hArea * (815 / 1000 - 63 / 1000 * o.nFusEng) ∧
    hWet o i r p = r.mount * hWet o i { r with mount := 1 } p + (1 - r.mount) * hWet o i { r with mount := 0 } p := by
  simp only [hWet, h, Bool.false_eq_true, if_false]
  refine ⟨?_, ?_, ?_⟩ <;> ring

/-- The part of the body that a root with this chord and thickness hides: 0.673 of the enclosing rectangle. -/
theorem fusAdj_rect (chord tc : ℝ) : 1000 * fusAdj chord tc = 673 * (chord * (chord * tc)) := by
  unfold fusAdj
  ring

end Verif.WettedArea
