import Verif.Model.UFac
import Verif.Props.SmoothMath
import Verif.Lemmas.VecDeriv
import Mathlib.Tactic.FieldSimp
import Mathlib.Tactic.Ring
import Mathlib.Tactic.Linarith
import Mathlib.Tactic.LinearCombination

/-! ## C98: the lift interference factor and its derivatives -/

namespace Verif.UFac
open Real Filter Topology

theorem set_get (i : In) (w : Wrt) : i.set w (i.get w) = i := by cases w <;> rfl

/-- The factor before the limit as a function of the inputs. -/
noncomputable def rawIn (i : In) : ℝ := raw i.ratio i.bbar i.sigma i.sigstr

/-- What the entry by the lift ratio should be. -/
noncomputable def dRatio (i : In) : ℝ :=
  (2 * (1 + i.ratio) * denom i.ratio i.bbar i.sigma i.sigstr
    - (1 + i.ratio) ^ 2 * (2 * i.sigstr * (i.ratio / i.bbar) / i.bbar + 2 * i.sigma / i.bbar))
    / denom i.ratio i.bbar i.sigma i.sigstr ^ 2

/-- The right derivatives. -/
noncomputable def dRight (i : In) : Wrt → ℝ
  | .ratio => dRatio i
  | w => dRaw i w

theorem raw_deriv {i : In} (hb : i.bbar ≠ 0) (hd : denom i.ratio i.bbar i.sigma i.sigstr ≠ 0)
    (w : Wrt) : HasDerivAt (fun t => rawIn (i.set w t)) (dRight i w) (i.get w) := by
  cases w
  case ratio =>
    have e := (((hasDerivAt_id i.ratio).const_add 1).pow 2).div
      ((((((hasDerivAt_id i.ratio).div_const i.bbar).pow 2).const_mul i.sigstr).add
        (((hasDerivAt_id i.ratio).const_mul (2 * i.sigma)).div_const i.bbar)).add_const 1) hd
    refine hd_congr e (fun t => rfl) ?_
    simp only [dRight, dRatio, denom, Pi.pow_apply, Pi.add_apply, id, Nat.cast_ofNat,
      Nat.add_one_sub_one, pow_one] at hd ⊢
    ring
  case bbar =>
    have q := (hasDerivAt_const i.bbar i.ratio).div (hasDerivAt_id i.bbar) hb
    have e := (hasDerivAt_const i.bbar ((1 + i.ratio) ^ 2)).div
      ((((q.pow 2).const_mul i.sigstr).add
        ((hasDerivAt_const i.bbar (2 * i.sigma * i.ratio)).div (hasDerivAt_id i.bbar) hb)).add_const
          1) hd
    refine hd_congr e (fun t => rfl) ?_
    simp only [dRight, dRaw, denom, Pi.pow_apply, Pi.add_apply, Pi.div_apply, id, Nat.cast_ofNat,
      Nat.add_one_sub_one, pow_one] at hd ⊢
    field_simp
    ring
  case sigma =>
    have e := (hasDerivAt_const i.sigma ((1 + i.ratio) ^ 2)).div
      (((((((hasDerivAt_id i.sigma).const_mul 2).mul_const i.ratio).div_const i.bbar)).const_add
        (i.sigstr * (i.ratio / i.bbar) ^ 2)).add_const 1) hd
    refine hd_congr e (fun t => rfl) ?_
    simp only [dRight, dRaw, denom, id] at hd ⊢
    field_simp
    ring
  case sigstr =>
    have e := (hasDerivAt_const i.sigstr ((1 + i.ratio) ^ 2)).div
      (((((hasDerivAt_id i.sigstr).mul_const ((i.ratio / i.bbar) ^ 2))).add_const
        (2 * i.sigma * i.ratio / i.bbar)).add_const 1) hd
    refine hd_congr e (fun t => rfl) ?_
    simp only [dRight, dRaw, denom, id] at hd ⊢
    field_simp
    ring

/-! ### Transport aircraft -/

/-- The three entries other than the one by the lift ratio are right. -/
theorem transport_partials_partial {i : In} (hb : i.bbar ≠ 0)
    (hd : denom i.ratio i.bbar i.sigma i.sigstr ≠ 0) {w : Wrt} (hw : w ≠ .ratio) :
    HasDerivAt (fun t => ufac .transport (i.set w t)) (part .transport i w) (i.get w) := by
  refine hd_congr (raw_deriv hb hd w) (fun t => rfl) ?_
  cases w <;> simp_all [part, limit, dRight]

/-- The entry by the lift ratio is right only where the tail is as wide as the wing or the lift ratio
is minus one. -/
theorem transport_ratio_iff {i : In} (hb : i.bbar ≠ 0)
    (hd : denom i.ratio i.bbar i.sigma i.sigstr ≠ 0) :
    HasDerivAt (fun t => ufac .transport (i.set .ratio t)) (part .transport i .ratio) i.ratio ↔
      i.bbar = 1 ∨ i.ratio = -1 := by
  have R := raw_deriv hb hd .ratio
  have key : part .transport i .ratio - dRatio i
      = 2 * (1 + i.ratio) * (1 - i.bbar) / (i.bbar * denom i.ratio i.bbar i.sigma i.sigstr) := by
    simp only [part, dRaw, dRatio]
    generalize denom i.ratio i.bbar i.sigma i.sigstr = d at *
    field_simp
    ring
  have hden : i.bbar * denom i.ratio i.bbar i.sigma i.sigstr ≠ 0 := mul_ne_zero hb hd
  constructor
  · intro h
    have e : part .transport i .ratio = dRatio i := h.unique R
    rw [e, sub_self, eq_comm, div_eq_zero_iff] at key
    rcases key with k | k
    · rcases mul_eq_zero.1 k with k | k
      · right; linarith
      · left; linarith
    · exact absurd k hden
  · intro h
    refine hd_congr R (fun t => rfl) ?_
    have : 2 * (1 + i.ratio) * (1 - i.bbar) = 0 := by
      rcases h with h | h <;> rw [h] <;> ring
    rw [this, zero_div] at key
    exact sub_eq_zero.1 key

/-- A tail of 40 percent of the span with a lift ratio of zero: the entry is two and a half times the
derivative. -/
theorem transport_ratio_violated :
    ∃ i : In, 0 < i.bbar ∧ i.bbar < 1 ∧ part .transport i .ratio = 5 / 2 * dRatio i ∧
      ¬ HasDerivAt (fun t => ufac .transport (i.set .ratio t)) (part .transport i .ratio)
        i.ratio := by
  refine ⟨⟨0, 2 / 5, 0, 0, 100⟩, by norm_num, by norm_num, ?_, ?_⟩
  · norm_num [part, dRaw, dRatio, denom]
  · rw [transport_ratio_iff (by norm_num) (by norm_num [denom])]
    norm_num

/-! ### Blended wing bodies -/

/-- The factor of a blended wing body never exceeds the limit. -/
theorem bwb_le (i : In) : ufac .bwb i ≤ 975 / 1000 := min_le_right _ _

theorem bwbSmooth_lt (i : In) {mu : ℝ} (h : 0 < mu) :
    ufac (.bwbSmooth mu) i < 975 / 1000 ∧
    ufac .bwb i - log 2 / mu ≤ ufac (.bwbSmooth mu) i := by
  have := smoothMin_bounds (raw i.ratio (bbarBwb i) i.sigma i.sigstr) (975 / 1000) mu h
  exact ⟨this.1.trans_le (min_le_right _ _), this.2⟩

/-- The ratio of two spans is compared with a hundredth of the span in feet: for every wing wider than
100 feet the tail is left out, whatever its size. -/
theorem bwb_tail_ignored_violated {i : In} (hs : 100 < i.span) {b : ℝ} (h0 : i.bbar ≤ 1)
    (h1 : b ≤ 1) (k : Kind) (hk : k ≠ .transport) :
    ufac k i = ufac k { i with bbar := b } := by
  have e1 : bbarBwb i = 1 := if_pos (by linarith)
  have e2 : bbarBwb { i with bbar := b } = 1 := if_pos (show b < 1 / 100 * i.span by linarith)
  cases k <;> simp_all [ufac]

theorem bwb_raw {i : In} (h : 1 / 100 * i.span < i.bbar) (w : Wrt) :
    ∀ᶠ t in 𝓝 (i.get w), raw (i.set w t).ratio (bbarBwb (i.set w t)) (i.set w t).sigma
      (i.set w t).sigstr = rawIn (i.set w t) := by
  have c : ContinuousAt (fun t => (i.set w t).bbar) (i.get w) := by
    cases w
    case bbar => exact continuousAt_id
    all_goals exact continuousAt_const (y := i.bbar)
  have sp : ∀ t, (i.set w t).span = i.span := by cases w <;> intro t <;> rfl
  have h0 : 1 / 100 * i.span < (i.set w (i.get w)).bbar := by rw [set_get]; exact h
  filter_upwards [c.eventually_const_lt h0] with t ht
  have : bbarBwb (i.set w t) = (i.set w t).bbar := by
    rw [bbarBwb, if_neg]
    rw [sp]; exact not_lt.2 (le_of_lt ht)
  rw [this, rawIn]

/-- Where the input is used at all and the limit is not met exactly, the three entries other than the
one by the lift ratio are right. -/
theorem bwb_partials_partial {i : In} (hb : i.bbar ≠ 0)
    (hd : denom i.ratio i.bbar i.sigma i.sigstr ≠ 0) (h : 1 / 100 * i.span < i.bbar)
    (hl : rawIn i ≠ 975 / 1000) {w : Wrt} (hw : w ≠ .ratio) :
    HasDerivAt (fun t => ufac .bwb (i.set w t)) (part .bwb i w) (i.get w) := by
  have R := raw_deriv hb hd w
  have E := bwb_raw h w
  have hc := R.continuousAt
  have e0 : rawIn (i.set w (i.get w)) = rawIn i := by rw [set_get]
  have hp : part .bwb i w = (if rawIn i < 975 / 1000 then 1 else 0) * dRight i w := by
    cases w <;> first | exact absurd rfl hw | rfl
  rcases lt_or_gt_of_ne hl with c | c
  · rw [hp, if_pos c, one_mul]
    refine R.congr_of_eventuallyEq ?_
    filter_upwards [E, hc.eventually_lt_const (u := 975 / 1000) (e0.symm ▸ c)] with t h1 h2
    show min _ _ = _
    rw [h1, min_eq_left (le_of_lt h2)]
  · rw [hp, if_neg c.not_gt, zero_mul]
    refine (hasDerivAt_const _ (975 / 1000 : ℝ)).congr_of_eventuallyEq ?_
    filter_upwards [E, hc.eventually_const_lt (u := 975 / 1000) (e0.symm ▸ c)] with t h1 h2
    show min _ _ = _
    rw [h1, min_eq_right (le_of_lt h2)]

theorem bwbSmooth_partials_partial {i : In} (hb : i.bbar ≠ 0)
    (hd : denom i.ratio i.bbar i.sigma i.sigstr ≠ 0) (h : 1 / 100 * i.span < i.bbar) {mu : ℝ}
    (hm : mu ≠ 0) {w : Wrt} (hw : w ≠ .ratio) :
    HasDerivAt (fun t => ufac (.bwbSmooth mu) (i.set w t)) (part (.bwbSmooth mu) i w)
      (i.get w) := by
  have R := raw_deriv hb hd w
  have e0 : rawIn (i.set w (i.get w)) = rawIn i := by rw [set_get]
  have hp : part (.bwbSmooth mu) i w = dSmoothMin (rawIn i) (975 / 1000) mu * dRight i w := by
    cases w <;> first | exact absurd rfl hw | rfl
  have S := smoothMin_deriv (rawIn (i.set w (i.get w))) (975 / 1000) mu hm
  rw [e0] at S
  have C : HasDerivAt (fun t => smoothMin (rawIn (i.set w t)) (975 / 1000) mu)
      (dSmoothMin (rawIn i) (975 / 1000) mu * dRight i w) (i.get w) :=
    HasDerivAt.comp (h₂ := fun y => smoothMin y (975 / 1000) mu) (i.get w) (by rw [e0]; exact S) R
  rw [hp]
  refine C.congr_of_eventuallyEq ?_
  filter_upwards [bwb_raw h w] with t h1
  show smoothMin _ _ _ = _
  rw [h1]

/-- For a tail which is left out, the value does not depend on it and the entry by it is not zero, also
in the tailless case `bbar = 1` of the aircraft models. -/
theorem bwb_bbar_violated {i : In} (h : i.bbar < 1 / 100 * i.span) (hb : 0 < i.bbar)
    (hl : 0 < i.ratio) (hs : 0 < i.sigma) (hss : 0 < i.sigstr) (hr : rawIn i < 975 / 1000) :
    HasDerivAt (fun t => ufac .bwb (i.set .bbar t)) 0 i.bbar ∧ 0 < part .bwb i .bbar := by
  constructor
  · refine (hasDerivAt_const _ (ufac .bwb { i with bbar := i.bbar })).congr_of_eventuallyEq ?_
    filter_upwards [eventually_lt_nhds h] with t ht
    have e1 : bbarBwb (i.set .bbar t) = 1 := if_pos (show t < 1 / 100 * i.span from ht)
    have e2 : bbarBwb i = 1 := if_pos h
    show min _ _ = min _ _
    rw [e1, e2]
    rfl
  · have hr' : raw i.ratio i.bbar i.sigma i.sigstr < 975 / 1000 := hr
    have hden : 0 < denom i.ratio i.bbar i.sigma i.sigstr := by unfold denom; positivity
    rw [part, limit, if_pos hr', one_mul, dRaw]
    · refine div_pos ?_ (by positivity)
      have a : 0 < 2 * i.sigstr * (i.ratio / i.bbar) * i.ratio / i.bbar ^ 2 := by positivity
      have b : 0 < 2 * i.sigma * i.ratio / i.bbar ^ 2 := by positivity
      have c : 0 < (1 + i.ratio) ^ 2 := by positivity
      have e : -((1 + i.ratio) ^ 2) * (-2 * i.sigstr * (i.ratio / i.bbar) * i.ratio / i.bbar ^ 2
          - 2 * i.sigma * i.ratio / i.bbar ^ 2)
        = (1 + i.ratio) ^ 2 * (2 * i.sigstr * (i.ratio / i.bbar) * i.ratio / i.bbar ^ 2
          + 2 * i.sigma * i.ratio / i.bbar ^ 2) := by ring
      rw [e]
      positivity
    · simp

/-- Above the limit the value does not depend on the lift ratio, but the entry by it is not limited: at
a lift ratio of zero it is `2 / bbar - 2 sigma / bbar`. -/
theorem bwb_ratio_violated {i : In} (hl : i.ratio = 0) (hb : i.bbar ≠ 0) (hs : i.sigma ≠ 1) :
    HasDerivAt (fun t => ufac .bwb (i.set .ratio t)) 0 i.ratio ∧ part .bwb i .ratio ≠ 0 := by
  constructor
  · have hB : bbarBwb i ≠ 0 := by
      rw [bbarBwb]; split
      · exact one_ne_zero
      · exact hb
    let j : In := { i with bbar := bbarBwb i }
    have dj : denom j.ratio j.bbar j.sigma j.sigstr = 1 := by simp [denom, j, hl]
    have rj : rawIn j = 1 := by
      show (1 + i.ratio) ^ 2 / denom j.ratio j.bbar j.sigma j.sigstr = 1
      rw [dj, hl]; norm_num
    have hc := (raw_deriv (i := j) hB (by rw [dj]; exact one_ne_zero) .ratio).continuousAt
    have e0 : rawIn (j.set .ratio (j.get .ratio)) = 1 := by rw [set_get, rj]
    refine (hasDerivAt_const _ (975 / 1000 : ℝ)).congr_of_eventuallyEq ?_
    have hgt := hc.eventually_const_lt (u := 975 / 1000) (by show _ < rawIn (j.set .ratio (j.get .ratio)); rw [e0]; norm_num)
    filter_upwards [hgt] with t ht
    show min (rawIn (j.set .ratio t)) _ = _
    exact min_eq_right (le_of_lt ht)
  · have e : part .bwb i .ratio = (2 - 2 * i.sigma) / i.bbar := by
      simp only [part, dRaw, denom, hl]
      field_simp
      ring
    rw [e]
    refine div_ne_zero ?_ hb
    intro h
    exact hs (by linarith)

/-! ### Cases which meet the hypotheses -/

example : let i : In := ⟨1 / 10, 2 / 5, 1 / 2, 1 / 2, 100⟩
    i.bbar ≠ 0 ∧ denom i.ratio i.bbar i.sigma i.sigstr ≠ 0 := by
  norm_num [denom]

example : let i : In := ⟨1 / 10, 2 / 5, 1 / 2, 1 / 2, 30⟩
    i.bbar ≠ 0 ∧ denom i.ratio i.bbar i.sigma i.sigstr ≠ 0 ∧ 1 / 100 * i.span < i.bbar ∧
    rawIn i ≠ 975 / 1000 := by
  norm_num [denom, rawIn, raw]

example : let i : In := ⟨1 / 10, 1, 1, 1, 200⟩
    100 < i.span ∧ i.bbar ≤ 1 ∧ i.bbar < 1 / 100 * i.span := by
  norm_num

example : let i : In := ⟨1, 1, 2, 2, 200⟩
    i.bbar < 1 / 100 * i.span ∧ 0 < i.bbar ∧ 0 < i.ratio ∧ 0 < i.sigma ∧ 0 < i.sigstr ∧
    rawIn i < 975 / 1000 := by
  norm_num [denom, rawIn, raw]

end Verif.UFac
