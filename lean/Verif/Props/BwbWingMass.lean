import Verif.Model.BwbWingMass
import Verif.Props.SmallMass

/-! # Properties of the wing mass of a blended wing body -/

namespace Verif.BwbWingMass
open Real Verif.SmallMass

/-- The tube and wing problem with the same solution: reduced bending moment and span. -/
noncomputable def BIn.plain (i : BIn) : WIn := { i.w with strut := i.w.strut / (1 + i.r), span := i.w.span - i.cab }

theorem base_eq (i : BIn) : i.numer / i.denom = i.plain.strut * i.plain.ulf * (i.plain.gross - 0.8 * i.plain.x) := by
  simp only [BIn.numer, BIn.denom, BIn.plain]; ring

/-- The residual is that of a tube and wing with the bending moment over one plus the lift ratio and without the cabin. -/
theorem res_plain (i : BIn) : i.res = i.plain.res := by
  simp only [BIn.res, WIn.res, BIn.foo, WIn.foo, base_eq]
  rfl

theorem fac_plain (i : BIn) : i.fac = i.plain.fac := by
  simp only [BIn.fac, WIn.fac, base_eq]
  rfl

theorem foo_plain (i : BIn) : i.foo = i.plain.foo := by
  simp only [BIn.foo, WIn.foo, base_eq]

/-- The conventional wing is the case without lift of the body and without cabin. -/
theorem res_conventional (w : WIn) : (BIn.mk w 0 0).res = w.res := by
  rw [res_plain]; congr 1; cases w; simp [BIn.plain]

/-- All 15 partials of `linearize` are the derivatives of the residual, wherever the powers are taken of positive numbers. -/
theorem bwb_partials (i : BIn) (v : Var) (hb : 0 < i.numer / i.denom) (hd : i.denom ≠ 0) (hs : 0 < i.span)
    (ht : 0 < 1 + i.w.tr) (hc : 0 < i.w.tc) (hsw : 0 < cos i.w.sw) :
    HasDerivAt (fun t => (i.set v t).res) (i.J v) (i.val v) := by
  obtain ⟨g1, g2, g3, g4, g5, g6, g7, g8, g9, g10, g11, g12, g13⟩ :=
    wing_partials i.plain (by rw [← base_eq]; exact hb) hs ht hc hsw
  simp only [res_plain]
  cases v
  case gross =>
    refine g1.congr_deriv ?_
    simp only [WIn.jGross, BIn.J, fac_plain, BIn.denom]; simp only [BIn.plain]; ring
  case high => exact g2
  case strut =>
    have h : HasDerivAt (fun t : ℝ => t / (1 + i.r)) (1 / (1 + i.r)) i.w.strut := (hasDerivAt_id' _).div_const _
    refine (HasDerivAt.comp (h₂ := fun t => WIn.res { i.plain with strut := t }) i.w.strut g3 h).congr_deriv ?_
    simp only [WIn.jStrut, BIn.J, fac_plain, BIn.denom]; simp only [BIn.plain]; ring
  case ulf =>
    refine g4.congr_deriv ?_
    simp only [WIn.jUlf, BIn.J, fac_plain, BIn.denom]; simp only [BIn.plain]; ring
  case r =>
    have hd' : 1 + i.r ≠ 0 := hd
    have h : HasDerivAt (fun t : ℝ => i.w.strut / (1 + t)) (-i.w.strut / (1 + i.r) ^ 2) i.r := by
      refine ((hasDerivAt_const i.r i.w.strut).div ((hasDerivAt_id' i.r).const_add 1) hd').congr_deriv ?_
      simp
    refine (HasDerivAt.comp (h₂ := fun t => WIn.res { i.plain with strut := t }) i.r g3 h).congr_deriv ?_
    simp only [WIn.jStrut, BIn.J, fac_plain, BIn.denom, BIn.numer]; simp only [BIn.plain]; ring
  case cw =>
    refine g5.congr_deriv ?_
    simp only [WIn.jCw, BIn.J, foo_plain]; rfl
  case cm =>
    refine g6.congr_deriv ?_
    simp only [WIn.jCm, BIn.J, foo_plain]; rfl
  case ce =>
    refine g7.congr_deriv ?_
    simp only [WIn.jCe, BIn.J, foo_plain]; rfl
  case cg =>
    refine g8.congr_deriv ?_
    simp only [WIn.jCg, BIn.J, foo_plain]; rfl
  case span =>
    have h : HasDerivAt (fun t : ℝ => t - i.cab) 1 i.w.span := (hasDerivAt_id' _).sub_const _
    refine (HasDerivAt.comp (h₂ := fun t => WIn.res { i.plain with span := t }) i.w.span g9 h).congr_deriv ?_
    simp only [WIn.jSpan, BIn.J, foo_plain, mul_one]; rfl
  case cab =>
    have h : HasDerivAt (fun t : ℝ => i.w.span - t) (-1) i.cab := (hasDerivAt_id' _).const_sub _
    refine (HasDerivAt.comp (h₂ := fun t => WIn.res { i.plain with span := t }) i.cab g9 h).congr_deriv ?_
    have e : i.J .cab = -i.J .span := by simp only [BIn.J]; ring
    rw [e, mul_neg_one, neg_inj]
    simp only [WIn.jSpan, BIn.J, foo_plain]; rfl
  case tr =>
    refine g10.congr_deriv ?_
    simp only [WIn.jTr, BIn.J, foo_plain]; rfl
  case tc =>
    refine g11.congr_deriv ?_
    simp only [WIn.jTc, BIn.J, foo_plain]; rfl
  case sw =>
    refine g12.congr_deriv ?_
    simp only [WIn.jSw, BIn.J, foo_plain]; rfl
  case x =>
    refine g13.congr_deriv ?_
    simp only [WIn.jX, BIn.J, fac_plain, BIn.denom]; simp only [BIn.plain]; ring

/-- There is exactly one wing mass up to 1.25 times the gross mass that solves the equation. -/
theorem bwb_exists_unique (i : BIn) (hp : Physical i.plain) : ∃! x, x ≤ 1.25 * i.w.gross ∧ (i.set .x x).res = 0 := by
  have h := wing_exists_unique i.plain hp
  simp only [res_plain]
  exact h

/-- Lift of the body never makes the wing heavier: the residual grows with the ratio. -/
theorem res_mono_ratio (i : BIn) (hk : 0 ≤ kfac i.plain) (hr : 0 ≤ i.r) {r : ℝ} (h : i.r ≤ r) (hs : 0 ≤ i.numer) :
    i.res ≤ (i.set .r r).res := by
  have e : kfac (i.set .r r).plain = kfac i.plain := rfl
  rw [res_plain, res_plain, res_eq, res_eq, e]
  simp only [← foo_plain]
  have h1 : (i.set .r r).foo ≤ i.foo := by
    change (i.numer / (1 + r)) ^ (0.757 : ℝ) ≤ (i.numer / (1 + i.r)) ^ (0.757 : ℝ)
    apply rpow_le_rpow (div_nonneg hs (by linarith)) _ (by norm_num)
    gcongr
  have h2 := mul_le_mul_of_nonneg_left h1 hk
  change i.w.x - (kfac i.plain * i.foo + i.w.high) ≤ i.w.x - (kfac i.plain * (i.set .r r).foo + i.w.high)
  linarith

/-- A body that meets the hypotheses. -/
noncomputable def demoBody : BIn := ⟨{ demoWing with span := 120 }, 20, 0.25⟩

example : 0 < demoBody.numer / demoBody.denom ∧ demoBody.denom ≠ 0 ∧ 0 < demoBody.span ∧ Physical demoBody.plain := by
  refine ⟨?_, ?_, ?_, ⟨?_, ?_, ?_⟩⟩ <;>
    simp only [demoBody, demoWing, BIn.numer, BIn.denom, BIn.span, BIn.plain, kfac, cos_zero, add_zero, one_rpow] <;>
    norm_num
  positivity

end Verif.BwbWingMass
