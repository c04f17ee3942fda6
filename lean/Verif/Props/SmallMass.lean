import Verif.Model.SmallMass
import Verif.Lemmas.VecDeriv
import Mathlib.Analysis.SpecialFunctions.Pow.Deriv
import Mathlib.Analysis.SpecialFunctions.Trigonometric.Deriv
import Mathlib.Analysis.SpecialFunctions.Pow.Continuity
import Mathlib.Topology.Order.IntermediateValue
import Mathlib.Tactic.Linarith
import Mathlib.Tactic.Ring
import Mathlib.Tactic.FieldSimp
import Mathlib.Tactic.Positivity
import Mathlib.Tactic.LinearCombination

/-!
# Payload, cargo containers, emergency equipment, fuel capacities and the implicit wing mass
-/

namespace Verif.SmallMass
open Real

/-! ## C110 -/

/-- The payload of the FLOPS group is the number of passengers times the mass of one with baggage, plus the cargo. -/
theorem flops_payload (n m b w c : ℝ) : groupPayload n m b w c = n * (m + b) + (w + c) := by
  unfold groupPayload totalPayload paxPayload paxMass baggage cargo; ring

/-- The declared constant partials, chained over the group, are the derivatives of the payload: the count of
passengers by both masses per passenger, 1 by both cargo masses. -/
theorem flops_payload_partials (n m b w c : ℝ) :
    HasDerivAt (fun t => groupPayload n t b w c) n m ∧
    HasDerivAt (fun t => groupPayload n m t w c) n b ∧
    HasDerivAt (fun t => groupPayload n m b t c) 1 w ∧
    HasDerivAt (fun t => groupPayload n m b w t) 1 c := by
  refine ⟨?_, ?_, ?_, ?_⟩
  · exact hd_congr (((hasDerivAt_id m).const_mul n).add_const (n * b + (w + c)))
      (fun t => by rw [flops_payload]; simp only [id]; ring) (by ring)
  · exact hd_congr (((hasDerivAt_id b).const_mul n).add_const (n * m + (w + c)))
      (fun t => by rw [flops_payload]; simp only [id]; ring) (by ring)
  · exact hd_congr ((hasDerivAt_id w).add_const (n * (m + b) + c))
      (fun t => by rw [flops_payload]; simp only [id]; ring) rfl
  · exact hd_congr ((hasDerivAt_id c).add_const (n * (m + b) + w))
      (fun t => by rw [flops_payload]; simp only [id]; ring) rfl

/-- GASP: with the design counts and cargo the total is the design payload, the passenger payload is the total
without cargo, and the payloads differ from each other only by the cargo when the counts agree. -/
theorem gasp_payload (pax paxDes m c cDes cMax : ℝ) :
    let o := gaspPayload pax paxDes m c cDes cMax
    o.total = o.passengers + c ∧ o.maximum - o.design = cMax - cDes ∧
    o.total - o.design = m * (pax - paxDes) + (c - cDes) ∧ o.passengers = m * pax := by
  simp only [gaspPayload]; refine ⟨trivial, ?_, ?_, trivial⟩ <;> ring

/-- With non-negative data and a cargo not above its maximum, the mission payload is at most the maximum one when no
more passengers than designed are carried. -/
theorem gasp_payload_le (pax paxDes m c cDes cMax : ℝ) (hm : 0 ≤ m) (hp : pax ≤ paxDes) (hc : c ≤ cMax) :
    (gaspPayload pax paxDes m c cDes cMax).total ≤ (gaspPayload pax paxDes m c cDes cMax).maximum := by
  simp only [gaspPayload]; nlinarith [mul_le_mul_of_nonneg_left hp hm]

example : (gaspPayload 150 180 200 1000 2000 3000).total ≤ (gaspPayload 150 180 200 1000 2000 3000).maximum :=
  gasp_payload_le _ _ _ _ _ _ (by norm_num) (by norm_num) (by norm_num)

/-- The number of containers covers the demand and exceeds it by at most one. -/
theorem containers_cover (pax : ℕ) (uld : ℚ) (h : 0 ≤ uld) :
    (pax : ℚ) * uld < containers pax uld ∧ (containers pax uld : ℚ) ≤ pax * uld + 1 := by
  have h0 : 0 ≤ (pax : ℚ) * uld := by positivity
  unfold containers pyInt
  rw [if_pos h0]
  push_cast
  exact ⟨Int.lt_floor_add_one _, by linarith [Int.floor_le ((pax : ℚ) * uld)]⟩

example : containers 180 (1/30) = 7 := by decide +kernel

/-- The mass of the containers grows with the number of passengers. -/
theorem containerMass_mono (p q : ℕ) (uld : ℚ) (h : 0 ≤ uld) (hpq : p ≤ q) :
    containerMass p uld ≤ containerMass q uld := by
  have hp : 0 ≤ (p : ℚ) * uld := by positivity
  have hq : 0 ≤ (q : ℚ) * uld := by positivity
  have : (p : ℚ) * uld ≤ q * uld := mul_le_mul_of_nonneg_right (by exact_mod_cast hpq) h
  have hf := Int.floor_le_floor this
  unfold containerMass containers pyInt
  rw [if_pos hp, if_pos hq]
  have : ((⌊(p : ℚ) * uld⌋ + 1 : ℤ) : ℚ) ≤ ((⌊(q : ℚ) * uld⌋ + 1 : ℤ) : ℚ) := by exact_mod_cast by linarith
  linarith

/-- An aircraft without containers, which the comment in the code says is possible, is charged for one whatever its
number of passengers. -/
theorem no_uld_violated (pax : ℕ) : containerMass pax 0 = 165 := by
  unfold containerMass containers pyInt; simp

/-- One container too many is charged when the demand is a whole number. -/
theorem exact_demand_extra (pax k : ℕ) (uld : ℚ) (h : (pax : ℚ) * uld = k) :
    containerMass pax uld = (k + 1) * 165 := by
  unfold containerMass containers pyInt
  rw [h, if_pos (by positivity)]
  have : ⌊(k : ℚ)⌋ = (k : ℤ) := Int.floor_natCast k
  rw [this]; push_cast; ring

example : containerMass 150 (1/50) = 4 * 165 := by
  have := exact_demand_extra 150 3 (1/50) (by norm_num); push_cast at this; linarith

/-- Attendants never decrease with the passengers, and every block of fifty seats is served by one up to 300 seats. -/
theorem attendants_mono (p q : ℕ) (h : p ≤ q) : attendants p ≤ attendants q := by
  unfold attendants; split_ifs <;> omega

theorem attendants_block (p : ℕ) (h1 : 51 ≤ p) (h2 : p ≤ 300) : attendants p = (p - 1) / 50 + 1 := by
  unfold attendants; split_ifs <;> omega

/-- Above 300 passengers the count of attendants, and so the equipment, does not grow any more. -/
theorem attendants_capped (p : ℕ) (h : 251 ≤ p) : attendants p = 6 ∧ emergency p = 165 := by
  have h1 : attendants p = 6 := by unfold attendants; rw [if_pos h]
  refine ⟨h1, ?_⟩
  unfold emergency
  rw [if_pos (by omega), h1]

theorem emergency_mono (p q : ℕ) (h : p ≤ q) : emergency p ≤ emergency q := by
  have := attendants_mono p q h
  have h1 : 35 ≤ q → 1 ≤ attendants q := fun hq => by unfold attendants; split_ifs <;> omega
  unfold emergency; split_ifs <;> omega

/-- From 51 to 300 passengers: 15 lbm and 25 lbm for each block of fifty. -/
theorem emergency_value (p : ℕ) (h1 : 51 ≤ p) (h2 : p ≤ 300) : emergency p = 25 * ((p - 1) / 50 + 1) + 15 := by
  unfold emergency; rw [if_pos (by omega), attendants_block p h1 h2]

/-- Up to five passengers no emergency equipment is carried; six to nine 10 lbm, ten to 34 15 lbm, 35 to 50 40 lbm. -/
theorem emergency_small (p : ℕ) : (p ≤ 5 → emergency p = 0) ∧ (6 ≤ p → p ≤ 9 → emergency p = 10) ∧
    (10 ≤ p → p ≤ 34 → emergency p = 15) ∧ (35 ≤ p → p ≤ 50 → emergency p = 40) := by
  refine ⟨?_, ?_, ?_, ?_⟩ <;> intros <;> unfold emergency attendants <;> split_ifs <;> omega

/-! ### Fuel capacities -/

/-- The equations of the capacity group do not determine the capacity: without given values every total is
consistent, always with an empty auxiliary tank. -/
theorem capacity_undetermined (w : ℝ) :
    (∀ m, Consistent {} w (m - w) 0 m) ∧ ∀ f a m, Consistent {} w f a m → f = m - w ∧ a = 0 := by
  constructor
  · intro m; simp only [Consistent, fusCap, auxCap, totCap, Option.getD_none]
    refine ⟨trivial, by ring, by ring⟩
  · rintro f a m ⟨h1, h2, _⟩
    simp only [fusCap, auxCap, Option.getD_none] at h1 h2
    exact ⟨h1, by rw [h2, h1]; ring⟩

/-- One pass keeps the stored total; with the default total of 0 the fuselage gets the negative capacity of the wing. -/
theorem capacity_pass (w m0 : ℝ) : onePass w m0 = (m0 - w, 0, m0) := by
  simp only [onePass, fusCap, auxCap, totCap]; refine Prod.ext rfl (Prod.ext ?_ ?_) <;> simp

/-- The documented meaning of the total (sum of the tanks, with empty fuselage tanks by default at least the wing) is
missed: with the default total of 0 the computed total is below the capacity of any wing. -/
theorem capacity_default_violated (w : ℝ) (hw : 0 < w) : (onePass w 0).2.2 < w ∧ (onePass w 0).1 < 0 := by
  rw [capacity_pass]; exact ⟨hw, by simpa using hw⟩

/-- A given total determines the rest: the fuselage takes what the wing does not hold. -/
theorem capacity_total_given (w M f a m : ℝ) :
    Consistent { max := some M } w f a m ↔ f = M - w ∧ a = 0 ∧ m = M := by
  simp only [Consistent, fusCap, auxCap, Option.getD_none, Option.getD_some]
  constructor
  · rintro ⟨h1, h2, h3⟩; subst h3; exact ⟨h1, by rw [h2, h1]; ring, rfl⟩
  · rintro ⟨h1, h2, h3⟩; subst h3; exact ⟨h1, by rw [h2, h1]; ring, rfl⟩

/-- Given fuselage and auxiliary tanks determine the total, the sum of the tanks. -/
theorem capacity_tanks_given (w F A f a m : ℝ) :
    Consistent { fus := some F, aux := some A } w f a m ↔ f = F ∧ a = A ∧ m = w + F + A := by
  simp only [Consistent, totCap, Option.getD_none, Option.getD_some]
  constructor
  · rintro ⟨h1, h2, h3⟩; subst h1 h2; exact ⟨rfl, rfl, h3⟩
  · rintro ⟨h1, h2, h3⟩; subst h1 h2; exact ⟨rfl, rfl, h3⟩

/-- Giving only the fuselage tank leaves the total undetermined. -/
theorem capacity_fus_given (w F m : ℝ) : Consistent { fus := some F } w F (m - w - F) m := by
  simp only [Consistent, auxCap, totCap, Option.getD_none, Option.getD_some]
  exact ⟨trivial, trivial, by ring⟩

/-- Giving only a non-empty auxiliary tank leaves no solution at all. -/
theorem capacity_aux_given_violated (w A : ℝ) (hA : A ≠ 0) : ¬∃ f a m, Consistent { aux := some A } w f a m := by
  rintro ⟨f, a, m, h1, h2, h3⟩
  simp only [fusCap, totCap, Option.getD_none, Option.getD_some] at h1 h2 h3
  apply hA; rw [← h2]; linarith

/-- Whatever is given, a consistent state with no given total has the total equal to the sum of the tanks. -/
theorem capacity_sum (g : Given) (w f a m : ℝ) (hg : g.max = none) (h : Consistent g w f a m) : m = w + f + a := by
  have := h.2.2; rw [hg] at this; exact this

/-- A given total with given tanks need not be their sum: the value of the user is kept. -/
theorem capacity_all_given_violated : ∃ g : Given, ∃ w f a m, Consistent g w f a m ∧ m ≠ w + f + a :=
  ⟨{ fus := some 1, aux := some 1, max := some 0 }, 1, 1, 1, 0,
    by simp [Consistent], by norm_num⟩

/-! ### The implicit wing mass -/

/-- `k` such that the guess is `k * foo + high`. -/
noncomputable def kfac (i : WIn) : ℝ :=
  i.cw * i.cm * i.ce * i.cg * i.span ^ (1.049 : ℝ) * (1 + i.tr) ^ (0.4 : ℝ) /
    (100000 * i.tc ^ (0.4 : ℝ) * cos i.sw ^ (1.535 : ℝ))

theorem res_eq (i : WIn) : i.res = i.x - (kfac i * i.foo + i.high) := by
  unfold WIn.res kfac; ring

/-- The base of the power as a function of a variable, with its derivative. -/
theorem foo_curve {f : ℝ → ℝ} {f' x : ℝ} (hf : HasDerivAt f f' x) (h0 : f x ≠ 0) :
    HasDerivAt (fun t => f t ^ (0.757 : ℝ)) (f' * 0.757 * f x ^ (-0.243 : ℝ)) x := by
  have e : (0.757 : ℝ) - 1 = -0.243 := by norm_num
  have := hf.rpow_const (p := 0.757) (Or.inl h0)
  rwa [e] at this

/-- All partials of `linearize` are the derivatives of the residual of `apply_nonlinear`, wherever the powers are taken
of positive numbers. -/
theorem wing_partials (i : WIn) (hb : 0 < i.strut * i.ulf * (i.gross - 0.8 * i.x)) (hs : 0 < i.span)
    (ht : 0 < 1 + i.tr) (hc : 0 < i.tc) (hsw : 0 < cos i.sw) :
    HasDerivAt (fun t => WIn.res { i with gross := t }) i.jGross i.gross ∧
    HasDerivAt (fun t => WIn.res { i with high := t }) i.jHigh i.high ∧
    HasDerivAt (fun t => WIn.res { i with strut := t }) i.jStrut i.strut ∧
    HasDerivAt (fun t => WIn.res { i with ulf := t }) i.jUlf i.ulf ∧
    HasDerivAt (fun t => WIn.res { i with cw := t }) i.jCw i.cw ∧
    HasDerivAt (fun t => WIn.res { i with cm := t }) i.jCm i.cm ∧
    HasDerivAt (fun t => WIn.res { i with ce := t }) i.jCe i.ce ∧
    HasDerivAt (fun t => WIn.res { i with cg := t }) i.jCg i.cg ∧
    HasDerivAt (fun t => WIn.res { i with span := t }) i.jSpan i.span ∧
    HasDerivAt (fun t => WIn.res { i with tr := t }) i.jTr i.tr ∧
    HasDerivAt (fun t => WIn.res { i with tc := t }) i.jTc i.tc ∧
    HasDerivAt (fun t => WIn.res { i with sw := t }) i.jSw i.sw ∧
    HasDerivAt (fun t => WIn.res { i with x := t }) i.jX i.x := by
  have hb' := hb.ne'
  have e1 : (1.049 : ℝ) - 1 = 0.049 := by norm_num
  have e2 : (0.4 : ℝ) - 1 = -0.6 := by norm_num
  have aff : ∀ (a b x : ℝ), HasDerivAt (fun t : ℝ => a * t + b) a x := fun a b x => by
    simpa using ((hasDerivAt_id x).const_mul a).add_const b
  have hden : i.den ≠ 0 := by
    unfold WIn.den
    have := rpow_pos_of_pos hc (0.4 : ℝ); have := rpow_pos_of_pos hsw (1.535 : ℝ); positivity
  refine ⟨?_, ?_, ?_, ?_, ?_, ?_, ?_, ?_, ?_, ?_, ?_, ?_, ?_⟩
  · have h := (foo_curve (f := fun t => i.strut * i.ulf * (t - 0.8 * i.x))
      (f' := i.strut * i.ulf) (x := i.gross)
      (hd_congr (aff (i.strut * i.ulf) (-(i.strut * i.ulf * (0.8 * i.x))) i.gross) (fun t => by ring) rfl) hb')
    refine hd_congr ((h.const_mul (-kfac i)).add_const (i.x - i.high)) (fun t => ?_) ?_
    · simp only [res_eq, kfac, WIn.foo]; ring
    · simp only [WIn.jGross, WIn.fac, kfac]; ring
  · refine hd_congr (aff (-1) (i.x - kfac i * i.foo) i.high) (fun t => ?_) rfl
    simp only [res_eq, kfac, WIn.foo]; ring
  · have h := (foo_curve (f := fun t => t * i.ulf * (i.gross - 0.8 * i.x))
      (f' := i.ulf * (i.gross - 0.8 * i.x)) (x := i.strut)
      (hd_congr (aff (i.ulf * (i.gross - 0.8 * i.x)) 0 i.strut) (fun t => by ring) rfl) hb')
    refine hd_congr ((h.const_mul (-kfac i)).add_const (i.x - i.high)) (fun t => ?_) ?_
    · simp only [res_eq, kfac, WIn.foo]; ring
    · simp only [WIn.jStrut, WIn.fac, kfac]; ring
  · have h := (foo_curve (f := fun t => i.strut * t * (i.gross - 0.8 * i.x))
      (f' := i.strut * (i.gross - 0.8 * i.x)) (x := i.ulf)
      (hd_congr (aff (i.strut * (i.gross - 0.8 * i.x)) 0 i.ulf) (fun t => by ring) rfl) hb')
    refine hd_congr ((h.const_mul (-kfac i)).add_const (i.x - i.high)) (fun t => ?_) ?_
    · simp only [res_eq, kfac, WIn.foo]; ring
    · simp only [WIn.jUlf, WIn.fac, kfac]; ring
  · refine hd_congr (aff i.jCw (i.x - i.high) i.cw) (fun t => ?_) rfl
    simp only [res_eq, kfac, WIn.foo, WIn.jCw, WIn.den]; ring
  · refine hd_congr (aff i.jCm (i.x - i.high) i.cm) (fun t => ?_) rfl
    simp only [res_eq, kfac, WIn.foo, WIn.jCm, WIn.den]; ring
  · refine hd_congr (aff i.jCe (i.x - i.high) i.ce) (fun t => ?_) rfl
    simp only [res_eq, kfac, WIn.foo, WIn.jCe, WIn.den]; ring
  · refine hd_congr (aff i.jCg (i.x - i.high) i.cg) (fun t => ?_) rfl
    simp only [res_eq, kfac, WIn.foo, WIn.jCg, WIn.den]; ring
  · have h := (hasDerivAt_id i.span).rpow_const (p := 1.049) (Or.inl hs.ne')
    rw [e1] at h
    refine hd_congr ((h.const_mul (-(i.cw * i.cm * i.ce * i.cg * i.foo * (1 + i.tr) ^ (0.4 : ℝ) / i.den))).add_const
      (i.x - i.high)) (fun t => ?_) ?_
    · simp only [res_eq, kfac, WIn.foo, WIn.den, id]; ring
    · simp only [WIn.jSpan, WIn.den, id]; ring
  · have h := (aff 1 1 i.tr).rpow_const (p := 0.4) (Or.inl (by rw [one_mul, add_comm]; exact ht.ne'))
    rw [e2] at h
    refine hd_congr ((h.const_mul (-(i.cw * i.cm * i.ce * i.cg * i.foo * i.span ^ (1.049 : ℝ) / i.den))).add_const
      (i.x - i.high)) (fun t => ?_) ?_
    · have : (1 * t + 1 : ℝ) = 1 + t := by ring
      simp only [res_eq, kfac, WIn.foo, WIn.den, this]; ring
    · have : (1 * i.tr + 1 : ℝ) = 1 + i.tr := by ring
      simp only [WIn.jTr, WIn.den, this]; ring
  · have h := (hasDerivAt_id i.tc).rpow_const (p := -0.4) (Or.inl hc.ne')
    have e3 : (-0.4 : ℝ) - 1 = -1.4 := by norm_num
    rw [e3] at h
    have hev : ∀ᶠ t in nhds i.tc, 0 < t := lt_mem_nhds hc
    have hp : ∀ t : ℝ, 0 < t → t ^ (-0.4 : ℝ) = (t ^ (0.4 : ℝ))⁻¹ := fun t h => by
      rw [show (-0.4 : ℝ) = -(0.4) by norm_num, rpow_neg h.le]
    have h' := (h.const_mul (-(i.cw * i.cm * i.ce * i.cg * i.foo * i.span ^ (1.049 : ℝ) * (1 + i.tr) ^ (0.4 : ℝ) /
      (100000 * cos i.sw ^ (1.535 : ℝ))))).add_const (i.x - i.high)
    have h2 := h'.congr_of_eventuallyEq (f₁ := fun t => WIn.res { i with tc := t }) (by
      filter_upwards [hev] with t ht0
      simp only [res_eq, kfac, WIn.foo, id, hp t ht0]
      have h1 := (rpow_pos_of_pos ht0 (0.4 : ℝ)).ne'
      have h2 := (rpow_pos_of_pos hsw (1.535 : ℝ)).ne'
      field_simp
      ring)
    refine hd_congr h2 (fun t => rfl) ?_
    have h1 : i.tc ^ (-1.4 : ℝ) = (i.tc ^ (1.4 : ℝ))⁻¹ := by
      rw [show (-1.4 : ℝ) = -(1.4) by norm_num, rpow_neg hc.le]
    simp only [WIn.jTc, id, h1]
    have h1 := (rpow_pos_of_pos hc (1.4 : ℝ)).ne'
    have h2 := (rpow_pos_of_pos hsw (1.535 : ℝ)).ne'
    field_simp
  · have h := (Real.hasDerivAt_cos i.sw).rpow_const (p := -1.535) (Or.inl hsw.ne')
    have e3 : (-1.535 : ℝ) - 1 = -2.535 := by norm_num
    rw [e3] at h
    have hev : ∀ᶠ t in nhds i.sw, 0 < cos t :=
      continuous_cos.continuousAt.eventually (lt_mem_nhds hsw)
    have hp : ∀ t : ℝ, 0 < t → t ^ (-1.535 : ℝ) = (t ^ (1.535 : ℝ))⁻¹ := fun t h => by
      rw [show (-1.535 : ℝ) = -(1.535) by norm_num, rpow_neg h.le]
    have h' := (h.const_mul (-(i.cw * i.cm * i.ce * i.cg * i.foo * i.span ^ (1.049 : ℝ) * (1 + i.tr) ^ (0.4 : ℝ) /
      (100000 * i.tc ^ (0.4 : ℝ))))).add_const (i.x - i.high)
    have h2 := h'.congr_of_eventuallyEq (f₁ := fun t => WIn.res { i with sw := t }) (by
      filter_upwards [hev] with t ht0
      simp only [res_eq, kfac, WIn.foo, hp _ ht0]
      have h1 := (rpow_pos_of_pos hc (0.4 : ℝ)).ne'
      have h2 := (rpow_pos_of_pos ht0 (1.535 : ℝ)).ne'
      field_simp
      ring)
    refine hd_congr h2 (fun t => rfl) ?_
    have h1 : cos i.sw ^ (-2.535 : ℝ) = (cos i.sw ^ (2.535 : ℝ))⁻¹ := by
      rw [show (-2.535 : ℝ) = -(2.535) by norm_num, rpow_neg hsw.le]
    simp only [WIn.jSw, h1]
    have h1 := (rpow_pos_of_pos hc (0.4 : ℝ)).ne'
    have h2 := (rpow_pos_of_pos hsw (2.535 : ℝ)).ne'
    field_simp
  · have h := (foo_curve (f := fun t => i.strut * i.ulf * (i.gross - 0.8 * t))
      (f' := -(0.8 * (i.strut * i.ulf))) (x := i.x)
      (hd_congr (aff (-(0.8 * (i.strut * i.ulf))) (i.strut * i.ulf * i.gross) i.x) (fun t => by ring) rfl) hb')
    refine hd_congr ((hasDerivAt_id i.x).sub ((h.const_mul (kfac i)).add_const i.high)) (fun t => ?_) ?_
    · simp only [res_eq, kfac, WIn.foo, id, Pi.sub_apply]
    · simp only [WIn.jX, WIn.fac, kfac]; ring

/-- Domain of the solver: coefficients that make the guess non-negative. -/
structure Physical (i : WIn) : Prop where
  k : 0 ≤ kfac i
  s : 0 ≤ i.strut * i.ulf
  h0 : i.high ≤ 1.25 * i.gross

/-- The residual grows strictly with the wing mass as long as the relieved mass is not negative, so the solver can
find at most one wing mass. -/
theorem res_strictMono (i : WIn) (hp : Physical i) {a b : ℝ} (hab : a < b) (hb : b ≤ 1.25 * i.gross) :
    WIn.res { i with x := a } < WIn.res { i with x := b } := by
  have hk : ∀ t, kfac { i with x := t } = kfac i := fun t => rfl
  simp only [res_eq, hk, WIn.foo]
  have h1 : i.strut * i.ulf * (i.gross - 0.8 * b) ≤ i.strut * i.ulf * (i.gross - 0.8 * a) :=
    mul_le_mul_of_nonneg_left (by linarith) hp.s
  have h2 : 0 ≤ i.strut * i.ulf * (i.gross - 0.8 * b) := mul_nonneg hp.s (by linarith)
  have h3 := mul_le_mul_of_nonneg_left (rpow_le_rpow h2 h1 (by norm_num : (0 : ℝ) ≤ 0.757)) hp.k
  linarith

/-- There is exactly one wing mass up to 1.25 times the gross mass that the solver may return, and it is not below the
mass of the high lift devices. -/
theorem wing_exists_unique (i : WIn) (hp : Physical i) :
    ∃! x, x ≤ 1.25 * i.gross ∧ WIn.res { i with x := x } = 0 := by
  have hk : ∀ t, kfac { i with x := t } = kfac i := fun t => rfl
  have hcont : ContinuousOn (fun t => WIn.res { i with x := t }) (Set.Icc i.high (1.25 * i.gross)) := by
    apply Continuous.continuousOn
    simp only [res_eq, hk, WIn.foo]
    have hb : Continuous (fun t : ℝ => i.strut * i.ulf * (i.gross - 0.8 * t)) := by fun_prop
    have : Continuous (fun t : ℝ => (i.strut * i.ulf * (i.gross - 0.8 * t)) ^ (0.757 : ℝ)) :=
      hb.rpow_const (fun t => Or.inr (by norm_num))
    exact continuous_id.sub ((continuous_const.mul this).add continuous_const)
  have hlo : WIn.res { i with x := i.high } ≤ 0 := by
    simp only [res_eq, hk, WIn.foo]
    have : 0 ≤ i.strut * i.ulf * (i.gross - 0.8 * i.high) := mul_nonneg hp.s (by linarith [hp.h0])
    have := mul_nonneg hp.k (rpow_nonneg this (0.757 : ℝ))
    linarith
  have hhi : 0 ≤ WIn.res { i with x := 1.25 * i.gross } := by
    simp only [res_eq, hk, WIn.foo]
    have : i.strut * i.ulf * (i.gross - 0.8 * (1.25 * i.gross)) = 0 := by ring
    rw [this, zero_rpow (by norm_num)]
    linarith [hp.h0]
  obtain ⟨x, hx, hx0⟩ := intermediate_value_Icc hp.h0 hcont ⟨hlo, hhi⟩
  refine ⟨x, ⟨hx.2, hx0⟩, ?_⟩
  rintro y ⟨hy, hy0⟩
  rcases lt_trichotomy y x with h | h | h
  · have := res_strictMono i hp h hx.2; simp only at hx0; linarith
  · exact h
  · have := res_strictMono i hp h hy; simp only at hx0; linarith

/-- The solution is at least the mass of the high lift devices. -/
theorem wing_ge_high (i : WIn) (hp : Physical i) (hx : i.x ≤ 1.25 * i.gross) (h : i.res = 0) : i.high ≤ i.x := by
  rw [res_eq] at h
  have : 0 ≤ i.strut * i.ulf * (i.gross - 0.8 * i.x) := mul_nonneg hp.s (by linarith)
  have := mul_nonneg hp.k (rpow_nonneg this (0.757 : ℝ))
  unfold WIn.foo at h
  linarith

/-- More gross mass gives a heavier wing: the residual falls with the gross mass. -/
theorem res_antitone_gross (i : WIn) (hp : Physical i) {g : ℝ} (hg : i.gross ≤ g) (hx : i.x ≤ 1.25 * i.gross) :
    WIn.res { i with gross := g } ≤ i.res := by
  have hk : kfac { i with gross := g } = kfac i := rfl
  simp only [res_eq, hk, WIn.foo]
  have h1 : i.strut * i.ulf * (i.gross - 0.8 * i.x) ≤ i.strut * i.ulf * (g - 0.8 * i.x) :=
    mul_le_mul_of_nonneg_left (by linarith) hp.s
  have h2 : 0 ≤ i.strut * i.ulf * (i.gross - 0.8 * i.x) := mul_nonneg hp.s (by linarith)
  have := mul_le_mul_of_nonneg_left (rpow_le_rpow h2 h1 (by norm_num : (0 : ℝ) ≤ 0.757)) hp.k
  linarith

/-- An aircraft that meets the hypotheses of the theorems on the wing. -/
noncomputable def demoWing : WIn :=
  { gross := 100000, high := 1000, strut := 1, ulf := 3.75, cw := 100, cm := 1, ce := 1, cg := 1, span := 100,
    tr := 0, tc := 1, sw := 0, x := 5000 }

example : Physical demoWing ∧ 0 < demoWing.strut * demoWing.ulf * (demoWing.gross - 0.8 * demoWing.x) ∧
    0 < demoWing.span ∧ 0 < 1 + demoWing.tr ∧ 0 < demoWing.tc ∧ 0 < cos demoWing.sw := by
  refine ⟨⟨?_, ?_, ?_⟩, ?_, ?_, ?_, ?_, ?_⟩ <;> simp only [demoWing, kfac, cos_zero, add_zero, one_rpow] <;>
    first | positivity | norm_num

end Verif.SmallMass
