import Verif.Model.GaspDrag
import Verif.Lemmas.VecDeriv
import Mathlib.Analysis.SpecialFunctions.Sqrt
import Mathlib.Algebra.BigOperators.Group.List.Basic
import Mathlib.Tactic.Linarith
import Mathlib.Tactic.FieldSimp
import Mathlib.Tactic.Positivity
import Mathlib.Tactic.Ring

/-!
# Theorems about the drag build-up of the GASP aerodynamics
-/

namespace Verif.GaspDrag
open Real

/-! ## C116 -/

/-! ### Ratios and slopes -/

/-- The gap is a distance: never negative. -/
theorem hbar_nonneg (t : Tail) (h : 0 < t.span) : 0 ≤ t.hbar := div_nonneg (abs_nonneg _) h.le

/-- A wing mounted in the middle leaves the gap to the tail alone. -/
theorem hbar_mid (t : Tail) (h : 0 < t.span) (hm : t.wingLoc = 1 / 2) : t.hbar * t.span = |t.htLoc * t.vtSpan| := by
  unfold Tail.hbar
  rw [hm, div_mul_cancel₀ _ h.ne']
  norm_num

/-- The gap of a mirrored layout (high wing for low wing, tail on the other side) is the same. -/
theorem hbar_mirror (t : Tail) : ({ t with wingLoc := 1 - t.wingLoc, htLoc := -t.htLoc } : Tail).hbar = t.hbar := by
  unfold Tail.hbar
  simp only
  rw [show -t.htLoc * t.vtSpan - 0.5 * (t.width - t.tcRoot * 2 * t.wingArea / t.span / (1 + t.taper)) * (2 * (1 - t.wingLoc) - 1)
    = -(t.htLoc * t.vtSpan - 0.5 * (t.width - t.tcRoot * 2 * t.wingArea / t.span / (1 + t.taper)) * (2 * t.wingLoc - 1)) by ring,
    abs_neg]

/-- The ratios recover the tail from the wing. -/
theorem ratios (t : Tail) (h : 0 < t.span) (ha : 0 < t.wingArea) (hc : 0 < t.chord) :
    t.bbar * t.span = t.htSpan ∧ t.sbar * t.wingArea = t.htArea ∧ t.cbar * t.chord = t.htChord :=
  ⟨div_mul_cancel₀ _ h.ne', div_mul_cancel₀ _ ha.ne', div_mul_cancel₀ _ hc.ne'⟩

/-- The modified ratio can be divided by: it is at least one hundredth. -/
theorem bbarAlt_ge (t : Tail) (h : 0 < t.span) : 0.01 ≤ t.bbarAlt ∧ (t.bbarAlt = t.bbar ∨ t.bbarAlt = 1 ∧ t.bbar < 0.01) := by
  unfold Tail.bbarAlt
  split_ifs with hs
  · refine ⟨by norm_num, Or.inr ⟨rfl, ?_⟩⟩
    unfold Tail.bbar
    rwa [div_lt_iff₀ h]
  · refine ⟨?_, Or.inl rfl⟩
    unfold Tail.bbar
    rw [le_div_iff₀ h]
    exact not_lt.1 hs

theorem cla_pos (ar s m : ℝ) (h : 0 < ar) : 0 < cla ar s m :=
  div_pos (mul_pos pi_pos h) (by positivity)

/-- The slope is at most that of a slender wing. -/
theorem cla_le (ar s m : ℝ) (h : 0 < ar) (hm : |m * cos s| ≤ 1) : cla ar s m ≤ π * ar / 2 := by
  unfold cla
  refine div_le_div_of_nonneg_left (by positivity) (by norm_num) ?_
  have h1 : 0 ≤ 1 - (m * cos s) ^ 2 := by
    have := (sq_le_one_iff_abs_le_one (m * cos s)).2 hm
    linarith
  have : 1 ≤ √(1 + (ar / (2 * cos s)) ^ 2 * (1 - (m * cos s) ^ 2)) := by
    rw [one_le_sqrt]
    nlinarith [mul_nonneg (sq_nonneg (ar / (2 * cos s))) h1]
  linarith

/-- The slope grows with the Mach number. -/
theorem cla_mono (ar s m m' : ℝ) (h : 0 < ar) (h0 : 0 ≤ m) (hm : m ≤ m') : cla ar s m ≤ cla ar s m' := by
  unfold cla
  refine div_le_div_of_nonneg_left (by positivity) (by positivity) ?_
  have h1 : (m * cos s) ^ 2 ≤ (m' * cos s) ^ 2 := by
    rw [mul_pow, mul_pow]
    exact mul_le_mul_of_nonneg_right (pow_le_pow_left₀ h0 hm 2) (sq_nonneg _)
  have := sqrt_le_sqrt (x := 1 + (ar / (2 * cos s)) ^ 2 * (1 - (m' * cos s) ^ 2))
    (y := 1 + (ar / (2 * cos s)) ^ 2 * (1 - (m * cos s) ^ 2))
    (by nlinarith [mul_le_mul_of_nonneg_left h1 (sq_nonneg (ar / (2 * cos s)))])
  linarith

/-- Where the flow normal to the wing is sonic the slope is exactly that of a slender wing. -/
theorem cla_sonic (ar s m : ℝ) (hm : m * cos s = 1) : cla ar s m = π * ar / 2 := by
  unfold cla
  rw [hm]; norm_num

/-- The body slope is computed exactly when every Mach number is in the allowed range. -/
theorem bodySlope_ok (b0 : ℝ) (ms : List ℝ) :
    (∃ r, bodySlope b0 ms = .ok r) ↔ ∀ m ∈ ms, -1e-8 ≤ m ∧ m < 1 + 1e-8 := by
  unfold bodySlope
  split_ifs with h
  · simp only [exists_false, false_iff, not_forall]
    obtain ⟨x, hx, h⟩ := h
    refine ⟨x, hx, fun hh => ?_⟩
    rcases h with h | h
    · exact absurd hh.1 (not_le.2 h)
    · exact absurd hh.2 (not_lt.2 h)
  · push Not at h
    exact ⟨fun _ m hm => h m hm, fun _ => ⟨_, rfl⟩⟩

/-- Where it is used below one the Prandtl-Glauert rule holds. -/
theorem bodySlope_partial (b0 : ℝ) (ms : List ℝ) (h : ∀ m ∈ ms, 0 ≤ m ∧ m < 1) (r : List ℝ) (hr : bodySlope b0 ms = .ok r) :
    r.length = ms.length ∧ ∀ (i : ℕ) (m : ℝ), ms[i]? = some m → ∃ v, r[i]? = some v ∧ v ^ 2 * (1 - m ^ 2) = b0 ^ 2 := by
  unfold bodySlope at hr
  split_ifs at hr with hh
  obtain rfl := Except.ok.inj hr
  refine ⟨by simp, fun i m hi => ⟨b0 / √(1 - m ^ 2), by simp [hi], ?_⟩⟩
  obtain ⟨h0, h1⟩ := h m (List.mem_of_getElem? hi)
  have : 0 < 1 - m ^ 2 := by nlinarith
  rw [div_pow, sq_sqrt this.le, div_mul_cancel₀ _ this.ne']

/-- But the range allows the Mach number one, where the root in the denominator is zero, and numbers above it, where the root
is that of a negative number. -/
theorem bodySlope_violated : ∃ m1 m2 : ℝ, (∃ r, bodySlope 1 [m1, m2] = .ok r) ∧ 1 - m1 ^ 2 = 0 ∧ 1 - m2 ^ 2 < 0 :=
  ⟨1, 1 + 1e-9, (bodySlope_ok _ _).2 (by
    intro m hm
    simp only [List.mem_cons, List.not_mem_nil, or_false] at hm
    rcases hm with rfl | rfl <;> norm_num), by norm_num, by norm_num⟩

/-! ### Lift of wing and tail -/

/-- The two slopes solve the coupled system: each is its isolated value reduced by the downwash of the other. -/
theorem lift_system (x : Lift) (h : x.denom ≠ 0) :
    x.claw = x.claw0 * (1 - x.clat * x.onWing) ∧ x.clat = x.clat0 * (1 - x.claw * x.onTail) := by
  refine ⟨?_, rfl⟩
  have h1 : x.claw * x.denom = x.claw0 * (1 - x.clat0 * x.onWing) := div_mul_cancel₀ _ h
  have h2 : x.clat = x.clat0 * (1 - x.claw * x.onTail) := rfl
  rw [h2]
  unfold Lift.denom at h1
  linear_combination h1

/-- The solution is the only one. -/
theorem lift_unique (x : Lift) (h : x.denom ≠ 0) (w t : ℝ) (hw : w = x.claw0 * (1 - t * x.onWing))
    (ht : t = x.clat0 * (1 - w * x.onTail)) : w = x.claw ∧ t = x.clat := by
  have h1 : w * x.denom = x.claw0 * (1 - x.clat0 * x.onWing) := by
    have e : x.denom = 1 - x.clat0 * x.claw0 * x.onTail * x.onWing := rfl
    rw [e]
    rw [ht] at hw
    linear_combination hw
  have h2 : w = x.claw := by
    unfold Lift.claw
    rw [eq_div_iff h, h1]
  exact ⟨h2, by rw [ht, h2]; rfl⟩

/-- The lift ratio: with the lift of the tail `clat * sbar` and of the wing `claw`, a share `delta` of the sum is moved from the
tail to the wing. -/
theorem ratio_eq (x : Lift) (_hw : x.claw ≠ 0) (ht : x.clat ≠ 0) (hs : x.sbar ≠ 0) (hsum : x.clat * x.sbar + x.claw ≠ 0) :
    x.ratio = (x.clat * x.sbar - x.delta * (x.clat * x.sbar + x.claw)) / (x.claw + x.delta * (x.clat * x.sbar + x.claw)) := by
  have hc : 1 / (1 + 1 / (x.clat / x.claw) / x.sbar) = x.clat * x.sbar / (x.clat * x.sbar + x.claw) := by
    field_simp
  unfold Lift.ratio
  simp only [hc]
  have e1 : x.clat * x.sbar / (x.clat * x.sbar + x.claw) - x.delta =
      (x.clat * x.sbar - x.delta * (x.clat * x.sbar + x.claw)) / (x.clat * x.sbar + x.claw) := by
    field_simp
  have e2 : 1 + x.delta - x.clat * x.sbar / (x.clat * x.sbar + x.claw) =
      (x.claw + x.delta * (x.clat * x.sbar + x.claw)) / (x.clat * x.sbar + x.claw) := by
    field_simp; ring
  rw [e1, e2, div_div_div_cancel_right₀ hsum]

/-- Without a stability margin it is the tail's lift over the wing's. -/
theorem ratio_neutral (x : Lift) (hw : x.claw ≠ 0) (ht : x.clat ≠ 0) (hs : x.sbar ≠ 0) (hsum : x.clat * x.sbar + x.claw ≠ 0)
    (hd : x.margin + x.deltaCg = 0) : x.ratio = x.clat * x.sbar / x.claw := by
  have : x.delta = 0 := by unfold Lift.delta; rw [hd, zero_mul]
  rw [ratio_eq x hw ht hs hsum, this]; simp

/-- A greater margin moves lift from the tail to the wing. -/
theorem ratio_anti (x : Lift) (d : ℝ) (hw : 0 < x.claw) (ht : 0 < x.clat) (hs : 0 < x.sbar) (hm : 0 < x.moment)
    (h0 : 0 ≤ x.margin + x.deltaCg) (hd : x.margin ≤ d) : ({ x with margin := d } : Lift).ratio ≤ x.ratio := by
  have hsum : 0 < x.clat * x.sbar + x.claw := by positivity
  rw [ratio_eq x hw.ne' ht.ne' hs.ne' hsum.ne']
  have e := ratio_eq { x with margin := d } hw.ne' ht.ne' hs.ne' hsum.ne'
  rw [e]
  have c1 : ({ x with margin := d } : Lift).clat = x.clat := rfl
  have c2 : ({ x with margin := d } : Lift).claw = x.claw := rfl
  have c3 : ({ x with margin := d } : Lift).delta = (d + x.deltaCg) * x.moment := rfl
  rw [c1, c2, c3]
  have hx : 0 ≤ x.delta := mul_nonneg h0 hm.le
  have hxd : x.delta ≤ (d + x.deltaCg) * x.moment := mul_le_mul_of_nonneg_right (by linarith) hm.le
  generalize (d + x.deltaCg) * x.moment = D at *
  generalize x.delta = E at *
  generalize x.clat * x.sbar + x.claw = S at *
  rw [div_le_div_iff₀ (by nlinarith) (by nlinarith)]
  have : 0 < x.clat * x.sbar := by positivity
  nlinarith [mul_le_mul_of_nonneg_right hxd hsum.le]

/-- The warning about a zero denominator is given exactly when all are zero. -/
theorem warns_iff (l : List ℝ) : warns l = true ↔ ∀ d ∈ l, d = 0 := by
  unfold warns
  simp

/-- So a zero denominator at one node among good ones is not announced. -/
theorem warns_violated (l : List ℝ) (a b : ℝ) (ha : a ∈ l) (hb : b ∈ l) (h0 : a = 0) (h1 : b ≠ 0) : warns l = false ∧ ∃ d ∈ l, d = 0 := by
  refine ⟨?_, a, ha, h0⟩
  rw [Bool.eq_false_iff]
  intro h
  exact h1 ((warns_iff l).1 h b hb)

example : warns [0, 1] = false ∧ ∃ d ∈ ([0, 1] : List ℝ), d = 0 := warns_violated _ 0 1 (by simp) (by simp) rfl one_ne_zero

theorem warns_partial (d : ℝ) : warns [d] = true ↔ d = 0 := by rw [warns_iff]; simp

/-! ### Skin friction and Reynolds number -/

namespace Geom

theorem cf_pos (g : Geom) : 0 < g.cf := by unfold cf; positivity

/-- Friction falls with the Mach number. -/
theorem cf_anti (g g' : Geom) (h : |g.mach| ≤ |g'.mach|) : g'.cf ≤ g.cf := by
  unfold cf
  have : g.mach ^ 2 ≤ g'.mach ^ 2 := sq_le_sq.2 h
  exact div_le_div_of_nonneg_left (by positivity) (by positivity)
    (rpow_le_rpow (by positivity) (by linarith) (by norm_num))

theorem sigX_range (x x0 mu : ℝ) : 0 ≤ sigX x x0 mu ∧ sigX x x0 mu < 1 := by
  unfold sigX
  split_ifs
  · have := exp_pos (-(x - x0) / mu)
    exact ⟨by positivity, by rw [div_lt_one (by positivity)]; linarith⟩
  · exact ⟨le_refl _, one_pos⟩

theorem sigX_half (x x0 mu : ℝ) (hm : 0 < mu) (h : x ≤ x0) : sigX x x0 mu ≤ 1 / 2 := by
  unfold sigX
  split_ifs
  · have h1 : 0 ≤ -(x - x0) / mu := div_nonneg (by linarith) hm.le
    have := one_le_exp h1
    rw [div_le_div_iff₀ (by positivity) (by norm_num)]
    linarith
  · norm_num

/-- In air (the speed of sound over the viscosity is in the millions per foot) every node has a good Reynolds number, at rest as
in flight. -/
theorem reli_good (g : Geom) (h0 : 0 ≤ g.mach) (hs : 20 ≤ g.sos / g.nu) : 1 < g.reli := by
  have e : g.sos * g.mach / g.nu = g.sos / g.nu * g.mach := by ring
  unfold reli
  simp only [e]
  obtain ⟨a, b⟩ := sigX_range g.mach 0.1 0.005
  rcases le_total g.mach 0.1 with h | h
  · have c := sigX_half g.mach 0.1 0.005 (by norm_num) h
    have : 0 ≤ g.sos / g.nu * g.mach := mul_nonneg (by linarith) h0
    nlinarith [mul_nonneg a this]
  · have : 2 ≤ g.sos / g.nu * g.mach := by nlinarith
    nlinarith [mul_le_mul_of_nonneg_left this a]

/-- The Reynolds number lies between that of slow flight and that of the flight condition. -/
theorem reli_between (g : Geom) : min 700000 (g.sos * g.mach / g.nu) ≤ g.reli ∧ g.reli ≤ max 700000 (g.sos * g.mach / g.nu) := by
  unfold reli
  obtain ⟨a, b⟩ := sigX_range g.mach 0.1 0.005
  generalize g.sos * g.mach / g.nu = y
  generalize sigX g.mach 0.1 0.005 = s at *
  have h1 := min_le_left 700000 y
  have h2 := min_le_right 700000 y
  have h3 := le_max_left 700000 y
  have h4 := le_max_right 700000 y
  simp only
  constructor
  · nlinarith [mul_le_mul_of_nonneg_left h2 a, mul_le_mul_of_nonneg_left h1 (sub_nonneg.2 b.le)]
  · nlinarith [mul_le_mul_of_nonneg_left h4 a, mul_le_mul_of_nonneg_left h3 (sub_nonneg.2 b.le)]

theorem logb10_pos (y : ℝ) (h : 1 < y) : 0 < logb 10 y := logb_pos (by norm_num) h

theorem fre_pos (r l : ℝ) (h : 1 < r * l) : 0 < fre r l := by
  unfold fre
  split_ifs
  · have := logb10_pos _ h
    positivity
  · exact one_pos

/-- The correction is one at the Reynolds number ten million of the friction coefficient. -/
theorem fre_one (r l : ℝ) (h : r * l = 10 ^ 7) : fre r l = 1 := by
  unfold fre
  rw [h, logb_pow, logb_self_eq_one (by norm_num)]
  norm_num

/-- Longer bodies have less friction. -/
theorem fre_strictAnti (r l l' : ℝ) (hr : 1 < r) (h : 1 < r * l) (hl : l < l') : fre r l' < fre r l := by
  unfold fre
  rw [if_pos hr, if_pos hr]
  have h1 : r * l < r * l' := mul_lt_mul_of_pos_left hl (by linarith)
  have h2 := logb10_pos _ h
  have h3 : logb 10 (r * l) < logb 10 (r * l') := logb_lt_logb (by norm_num) (by linarith) h1
  exact rpow_lt_rpow_of_neg (by positivity) (by linarith) (by norm_num)

end Geom

/-- The array of strut corrections is entry by entry that of the other surfaces if no node is masked. -/
theorem strutArr_partial (rs : List ℝ) (c : ℝ) (h : ∀ r ∈ rs, 1 < r) : strutArr rs c = .ok (rs.map fun r => Geom.fre r c) := by
  have hf : rs.filter (fun r => decide (r > 1)) = rs := by
    rw [List.filter_eq_self]
    intro r hr
    simpa using h r hr
  unfold strutArr
  simp only [hf, List.length_map, if_true]
  congr 1
  refine List.map_congr_left fun r hr => ?_
  unfold Geom.fre
  rw [if_pos (h r hr)]

/-- With a masked node and two good ones the arrays do not fit together. -/
theorem strutArr_violated (a b r c : ℝ) (ha : 1 < a) (hb : 1 < b) (hr : r ≤ 1) : ∃ e, strutArr [a, b, r] c = .error e := by
  have hf : [a, b, r].filter (fun r => decide (r > 1)) = [a, b] := by
    have : ¬ r > 1 := not_lt.2 hr
    simp [ha, hb, this]
  unfold strutArr
  simp [hf]

example : ∃ e, strutArr [2, 3, 0] 5 = .error e := strutArr_violated _ _ _ _ (by norm_num) (by norm_num) (by norm_num)

/-- And with a masked node and a single good one, all nodes get the value of the good one. -/
theorem strutArr_spread_violated (a r c : ℝ) (ha : 1 < a) (hr : r ≤ 1) : strutArr [a, r] c = .ok [Geom.fre a c, Geom.fre a c] := by
  have hf : [a, r].filter (fun r => decide (r > 1)) = [a] := by
    have : ¬ r > 1 := not_lt.2 hr
    simp [ha, this]
  unfold strutArr
  simp [hf, Geom.fre, ha, List.replicate]

/-! ### Flat plate areas -/

namespace Geom

/-- The parameters without and with the wing make up the flat plate area. -/
theorem sa5_eq (g : Geom) (h : g.wingArea ≠ 0) : g.sa5 * g.wingArea + g.few = g.fe := by
  unfold sa5 cdpo
  rw [div_mul_cancel₀ _ h]; ring

/-- The engine types contribute by number: splitting a type or reordering the types changes nothing. -/
theorem fen_perm (g : Geom) (es : List Engine) (h : g.engines.Perm es) : ({ g with engines := es } : Geom).fen = g.fen := by
  unfold fen
  simp only
  exact congrArg _ (List.Perm.sum_eq (h.map _)).symm

theorem fen_split (g : Geom) (e : Engine) (a b : ℕ) (es : List Engine) :
    ({ g with engines := { e with num := a } :: { e with num := b } :: es } : Geom).fen =
    ({ g with engines := { e with num := a + b } :: es } : Geom).fen := by
  unfold fen
  simp only [List.map_cons, List.sum_cons, Nat.cast_add]
  have e1 : ∀ es', ({ g with engines := es' } : Geom).cf = g.cf := fun _ => rfl
  have e2 : ∀ es', ({ g with engines := es' } : Geom).reli = g.reli := fun _ => rfl
  simp only [e1, e2]
  ring

/-- What the two drag coefficients take for the drag without lift is the flat plate area over the wing area, except that the
drag factor of the wing is lost. -/
theorem cd0_eq (g : Geom) (h : g.wingArea ≠ 0) :
    g.sa5 + g.sa6 * g.cf = g.fe / g.wingArea + g.ffWing * fre g.reli g.chord * g.cf * (1 - g.fWing) := by
  have := g.sa5_eq h
  have e : g.few = g.ffWing * g.wingArea * (g.fWing * g.cf) * fre g.reli g.chord := rfl
  rw [e] at this
  unfold sa6
  rw [← this]
  field_simp
  ring

/-- So it is right for the factor one alone. -/
theorem cd0_partial (g : Geom) (h : g.wingArea ≠ 0) (h1 : g.fWing = 1) : g.sa5 + g.sa6 * g.cf = g.fe / g.wingArea := by
  rw [g.cd0_eq h, h1]; ring

theorem cd0_violated (g : Geom) (h : g.wingArea ≠ 0) (hf : g.ffWing ≠ 0) (hr : 1 < g.reli * g.chord) (h1 : g.fWing ≠ 1) :
    g.sa5 + g.sa6 * g.cf ≠ g.fe / g.wingArea := by
  rw [g.cd0_eq h]
  have := (fre_pos _ _ hr).ne'
  have := g.cf_pos.ne'
  have : 1 - g.fWing ≠ 0 := sub_ne_zero.2 (Ne.symm h1)
  intro e
  have : g.ffWing * fre g.reli g.chord * g.cf * (1 - g.fWing) = 0 := by linarith
  simp_all

/-- Worse: a greater drag factor of the wing lowers the drag without lift when there is no excrescence drag, since only the
shielded part is multiplied by it. -/
theorem wing_factor_violated (g : Geom) (t : ℝ) (h : 0 < g.wingArea) (hf : 0 < g.ffWing) (hr : 1 < g.reli * g.chord)
    (hx : g.fExcr * g.pctExcr = 0) (hs : 0 < g.fInt * g.wfIntf * g.shield) (ht : g.fWing < t) :
    ({ g with fWing := t } : Geom).sa5 + ({ g with fWing := t } : Geom).sa6 * ({ g with fWing := t } : Geom).cf <
      g.sa5 + g.sa6 * g.cf := by
  have key : ∀ u : ℝ, ({ g with fWing := u } : Geom).sa5 + ({ g with fWing := u } : Geom).sa6 * ({ g with fWing := u } : Geom).cf =
      (g.fef + g.fevt + g.feht + g.fen + g.fInt * (g.wfIntf * g.feInt) + g.festrt + g.cd0Inc * g.wingArea) / g.wingArea
        + g.sa6 * g.cf - g.fInt * g.wfIntf * g.shield * (g.ffWing * (u * g.cf) * fre g.reli g.chord) / g.wingArea := by
    intro u
    have e1 : ({ g with fWing := u } : Geom).sa6 * ({ g with fWing := u } : Geom).cf = g.sa6 * g.cf := rfl
    have e2 : ({ g with fWing := u } : Geom).sa5 = (g.fef + g.fevt + g.feht + g.fen +
        g.fInt * (g.wfIntf * (g.feInt - (g.ffWing * g.wingArea * (u * g.cf) * fre g.reli g.chord) / g.wingArea * g.shield)) +
        g.festrt + g.cd0Inc * g.wingArea +
        g.fExcr * g.pctExcr * (g.ffWing * g.wingArea * (u * g.cf) * fre g.reli g.chord + g.fef + g.fevt + g.feht + g.fen + g.festrt))
        / g.wingArea := by
      show (_ + g.fef + g.fevt + g.feht + g.fen + _ + g.festrt + g.cd0Inc * g.wingArea + _ - _) / g.wingArea = _
      congr 1
      show g.ffWing * g.wingArea * (u * g.cf) * fre g.reli g.chord + g.fef + g.fevt + g.feht + g.fen +
        g.fInt * (g.wfIntf * (g.feInt - (g.ffWing * g.wingArea * (u * g.cf) * fre g.reli g.chord) / g.wingArea * g.shield)) +
        g.festrt + g.cd0Inc * g.wingArea + g.fExcr * g.pctExcr * (g.ffWing * g.wingArea * (u * g.cf) * fre g.reli g.chord +
          g.fef + g.fevt + g.feht + g.fen + g.festrt) - g.ffWing * g.wingArea * (u * g.cf) * fre g.reli g.chord = _
      ring
    rw [e1, e2, hx]
    field_simp
    ring
  rw [key t, show g.sa5 + g.sa6 * g.cf = _ from key g.fWing]
  have h2 := fre_pos _ _ hr
  have h3 := g.cf_pos
  have : g.fInt * g.wfIntf * g.shield * (g.ffWing * (g.fWing * g.cf) * fre g.reli g.chord) / g.wingArea <
      g.fInt * g.wfIntf * g.shield * (g.ffWing * (t * g.cf) * fre g.reli g.chord) / g.wingArea := by
    refine div_lt_div_of_pos_right (mul_lt_mul_of_pos_left ?_ hs) h
    exact mul_lt_mul_of_pos_right (mul_lt_mul_of_pos_left (mul_lt_mul_of_pos_right ht h3) hf) h2
  linarith

/-- Without a strut its area ratio still adds drag. -/
theorem no_strut_violated (g : Geom) (h : g.hasStrut = false) (h0 : 0 < g.strutIntf) (h1 : 0 < g.strutRatio) (h2 : 0 < g.wingArea)
    (h3 : 0 < g.fStrut) : 0 < g.festrt := by
  unfold festrt fstrt
  have := g.cf_pos
  simp only [h, Bool.false_eq_true, if_false]
  positivity

/-- With the default ratio zero there is none. -/
theorem no_strut_partial (g : Geom) (h : g.strutRatio = 0) : g.festrt = 0 := by
  unfold festrt; rw [h]; ring

/-! ### Induced drag -/

/-- The induced drag parameter in closed form. -/
theorem sa7_eq (g : Geom) (h : g.ar ≠ 0) :
    g.sa7 = 1 / (π * g.ar * g.ufac * g.siwb) + 1.1938 / π * (g.cdw0 / cos (deg2rad g.sweep) ^ 2 + g.cdpo) := by
  unfold sa7 see
  have hp := pi_pos.ne'
  generalize g.cdw0 / cos (deg2rad g.sweep) ^ 2 + g.cdpo = d
  rw [show 1 / (π * (1 / (1 / g.ufac / g.siwb + 1.1938 * g.ar * d)) * g.ar) =
    (1 / g.ufac / g.siwb + 1.1938 * g.ar * d) / (π * g.ar) by
      rw [one_div (1 / g.ufac / g.siwb + 1.1938 * g.ar * d)]
      rw [mul_right_comm, ← div_eq_mul_inv, one_div_div]]
  rw [add_div]
  congr 1
  · rw [div_div, div_div]; congr 1; ring
  · field_simp

/-- The Oswald efficiency is at most the interference factors, as viscous drag only lowers it. -/
theorem see_le (g : Geom) (h : 0 < g.ar) (hu : 0 < g.ufac) (hs : 0 < g.siwb) (hd : 0 ≤ g.cdw0 / cos (deg2rad g.sweep) ^ 2 + g.cdpo) :
    0 < g.see ∧ g.see ≤ g.ufac * g.siwb := by
  unfold see
  have hp : 0 < 1 / g.ufac / g.siwb := by positivity
  have hn : 0 ≤ 1.1938 * g.ar * (g.cdw0 / cos (deg2rad g.sweep) ^ 2 + g.cdpo) := by positivity
  refine ⟨by positivity, ?_⟩
  rw [div_le_iff₀ (by positivity)]
  have e : g.ufac * g.siwb * (1 / g.ufac / g.siwb) = 1 := by field_simp
  nlinarith [mul_nonneg (mul_pos hu hs).le hn]

/-! ### Compressibility -/

/-- At the quarter chord, and everywhere on a wing without taper, the sweep is the given one. -/
theorem sweepAt_quarter (g : Geom) (x : ℝ) (ha : g.ar ≠ 0) (hs : |g.sweep| < 90) (hx : x = 0.25 ∨ g.taper = 1) :
    g.sweepAt x = |g.sweep| := by
  have hz : 4 * (x - 0.25) * g.yale = 0 := by
    rcases hx with rfl | h
    · norm_num
    · unfold yale; rw [h]; norm_num
  unfold sweepAt tanSweep
  rw [hz, sub_zero, mul_div_cancel_left₀ _ ha]
  have hb : |deg2rad g.sweep| < π / 2 := by
    unfold deg2rad
    rw [mul_div_assoc, abs_mul, abs_of_pos (by positivity : 0 < π / 180)]
    have := pi_pos
    nlinarith
  have ht : |tan (deg2rad g.sweep)| = tan |deg2rad g.sweep| := by
    rcases le_total 0 (deg2rad g.sweep) with h | h
    · rw [abs_of_nonneg h] at hb ⊢
      exact abs_of_nonneg (tan_nonneg_of_nonneg_of_le_pi_div_two h hb.le)
    · rw [abs_of_nonpos h] at hb ⊢
      rw [← abs_neg, ← tan_neg]
      exact abs_of_nonneg (tan_nonneg_of_nonneg_of_le_pi_div_two (by linarith) hb.le)
  rw [ht, arctan_tan (by linarith [abs_nonneg (deg2rad g.sweep), pi_pos]) hb]
  unfold rad2deg deg2rad
  rw [mul_div_assoc g.sweep, abs_mul, abs_of_pos (by positivity : 0 < π / 180)]
  field_simp

/-- On an unswept wing the parameter of the divergence Mach number falls with the thickness, whatever the locations, if the
sweep term is positive. -/
theorem sa1_anti (g : Geom) (t : ℝ) (h : g.tc ≤ t) (hs : 0 ≤ 1 + 0.0033 * (4 * g.sweepAt g.xmp - 3 * g.sweepAt g.xmt)) :
    ({ g with tc := t } : Geom).sa1 ≤ g.sa1 := by
  show (1 + 0.0033 * (4 * g.sweepAt g.xmp - 3 * g.sweepAt g.xmt)) * (1 - 1.4 * t - 0.06 * (1 - g.xmp)) - 0.0368 ≤
    (1 + 0.0033 * (4 * g.sweepAt g.xmp - 3 * g.sweepAt g.xmt)) * (1 - 1.4 * g.tc - 0.06 * (1 - g.xmp)) - 0.0368
  have := mul_le_mul_of_nonneg_left (show 1 - 1.4 * t - 0.06 * (1 - g.xmp) ≤ 1 - 1.4 * g.tc - 0.06 * (1 - g.xmp) by linarith) hs
  linarith

theorem sa2_nonpos (g : Geom) (hx : g.xmp ≤ 0.65) (hs : 0 ≤ 1 + 0.0033 * (4 * g.sweepAt g.xmp - 3 * g.sweepAt g.xmt)) :
    g.sa2 ≤ 0 := by
  unfold sa2
  nlinarith [mul_nonneg (sub_nonneg.2 hx) hs]

end Geom

/-! ### Declared partials of the drag parameters -/

/-- Same options. -/
def SameOpts (g g' : Geom) : Prop := g.hasStrut = g'.hasStrut ∧ g.engines.map Engine.num = g'.engines.map Engine.num

theorem engines_ext : ∀ (a b : List Engine), a.map Engine.num = b.map Engine.num → a.map Engine.ff = b.map Engine.ff →
    a.map Engine.len = b.map Engine.len → a.map Engine.area = b.map Engine.area → a = b := by
  intro a
  induction a with
  | nil => intro b h _ _ _; exact (List.map_eq_nil_iff.1 h.symm).symm
  | cons e a ih =>
    intro b h1 h2 h3 h4
    cases b with
    | nil => simp at h1
    | cons f b =>
      simp only [List.map_cons, List.cons.injEq] at h1 h2 h3 h4
      obtain rfl := ih b h1.2 h2.2 h3.2 h4.2
      obtain ⟨_, _, _, _⟩ := e
      obtain ⟨_, _, _, _⟩ := f
      simp_all

/-- The inputs an output depends on without a declared partial. -/
def missing : Out → List Nm
  | .sa5 => [.strutChord]
  | .sa7 => .strutChord :: dragFactors
  | _ => []

/-- The declared inputs with the missing ones determine every output; for six of the eight outputs the declared ones do. -/
theorem declared_partial (o : Out) (g g' : Geom) (ho : SameOpts g g') (h : ∀ n ∈ declared o ++ missing o, g.get n = g'.get n) :
    g.out o = g'.out o := by
  cases o
  case sa1 =>
    have h_xmp : g.xmp = g'.xmp := List.singleton_inj.1 (h .xmp (by decide))
    have h_xmt : g.xmt = g'.xmt := List.singleton_inj.1 (h .xmt (by decide))
    have h_ar : g.ar = g'.ar := List.singleton_inj.1 (h .ar (by decide))
    have h_sweep : g.sweep = g'.sweep := List.singleton_inj.1 (h .sweep (by decide))
    have h_taper : g.taper = g'.taper := List.singleton_inj.1 (h .taper (by decide))
    have h_tc : g.tc = g'.tc := List.singleton_inj.1 (h .tc (by decide))
    simp only [Geom.out, Geom.sa1, Geom.sweepAt, Geom.tanSweep, Geom.yale, h_xmp, h_xmt, h_ar, h_sweep, h_taper, h_tc]
  case sa2 =>
    have h_xmp : g.xmp = g'.xmp := List.singleton_inj.1 (h .xmp (by decide))
    have h_xmt : g.xmt = g'.xmt := List.singleton_inj.1 (h .xmt (by decide))
    have h_ar : g.ar = g'.ar := List.singleton_inj.1 (h .ar (by decide))
    have h_sweep : g.sweep = g'.sweep := List.singleton_inj.1 (h .sweep (by decide))
    have h_taper : g.taper = g'.taper := List.singleton_inj.1 (h .taper (by decide))
    simp only [Geom.out, Geom.sa2, Geom.sweepAt, Geom.tanSweep, Geom.yale, h_xmp, h_xmt, h_ar, h_sweep, h_taper]
  case sa3 =>
    have h_ar : g.ar = g'.ar := List.singleton_inj.1 (h .ar (by decide))
    have h_sweep : g.sweep = g'.sweep := List.singleton_inj.1 (h .sweep (by decide))
    have h_taper : g.taper = g'.taper := List.singleton_inj.1 (h .taper (by decide))
    have h_tc : g.tc = g'.tc := List.singleton_inj.1 (h .tc (by decide))
    simp only [Geom.out, Geom.sa3, Geom.fk, Geom.rlmle, Geom.tanSweep, Geom.yale, h_ar, h_sweep, h_taper, h_tc]
  case sa4 =>
    have h_tc : g.tc = g'.tc := List.singleton_inj.1 (h .tc (by decide))
    simp only [Geom.out, Geom.sa4, h_tc]
  case sa5 =>
    have h_mach : g.mach = g'.mach := List.singleton_inj.1 (h .mach (by decide))
    have h_sos : g.sos = g'.sos := List.singleton_inj.1 (h .sos (by decide))
    have h_nu : g.nu = g'.nu := List.singleton_inj.1 (h .nu (by decide))
    have h_ffWing : g.ffWing = g'.ffWing := List.singleton_inj.1 (h .ffWing (by decide))
    have h_ffFus : g.ffFus = g'.ffFus := List.singleton_inj.1 (h .ffFus (by decide))
    have h_ffNac : g.engines.map Engine.ff = g'.engines.map Engine.ff := h .ffNac (by decide)
    have h_ffVtail : g.ffVtail = g'.ffVtail := List.singleton_inj.1 (h .ffVtail (by decide))
    have h_ffHtail : g.ffHtail = g'.ffHtail := List.singleton_inj.1 (h .ffHtail (by decide))
    have h_wfIntf : g.wfIntf = g'.wfIntf := List.singleton_inj.1 (h .wfIntf (by decide))
    have h_strutIntf : g.strutIntf = g'.strutIntf := List.singleton_inj.1 (h .strutIntf (by decide))
    have h_cd0Inc : g.cd0Inc = g'.cd0Inc := List.singleton_inj.1 (h .cd0Inc (by decide))
    have h_feFusInc : g.feFusInc = g'.feFusInc := List.singleton_inj.1 (h .feFusInc (by decide))
    have h_taper : g.taper = g'.taper := List.singleton_inj.1 (h .taper (by decide))
    have h_strutRatio : g.strutRatio = g'.strutRatio := List.singleton_inj.1 (h .strutRatio (by decide))
    have h_chord : g.chord = g'.chord := List.singleton_inj.1 (h .chord (by decide))
    have h_htChord : g.htChord = g'.htChord := List.singleton_inj.1 (h .htChord (by decide))
    have h_vtChord : g.vtChord = g'.vtChord := List.singleton_inj.1 (h .vtChord (by decide))
    have h_fusLen : g.fusLen = g'.fusLen := List.singleton_inj.1 (h .fusLen (by decide))
    have h_nacLen : g.engines.map Engine.len = g'.engines.map Engine.len := h .nacLen (by decide)
    have h_htArea : g.htArea = g'.htArea := List.singleton_inj.1 (h .htArea (by decide))
    have h_fusArea : g.fusArea = g'.fusArea := List.singleton_inj.1 (h .fusArea (by decide))
    have h_nacArea : g.engines.map Engine.area = g'.engines.map Engine.area := h .nacArea (by decide)
    have h_wingArea : g.wingArea = g'.wingArea := List.singleton_inj.1 (h .wingArea (by decide))
    have h_vtArea : g.vtArea = g'.vtArea := List.singleton_inj.1 (h .vtArea (by decide))
    have h_feInt : g.feInt = g'.feInt := List.singleton_inj.1 (h .feInt (by decide))
    have h_shield : g.shield = g'.shield := List.singleton_inj.1 (h .shield (by decide))
    have h_fFus : g.fFus = g'.fFus := List.singleton_inj.1 (h .fFus (by decide))
    have h_fHt : g.fHt = g'.fHt := List.singleton_inj.1 (h .fHt (by decide))
    have h_fInt : g.fInt = g'.fInt := List.singleton_inj.1 (h .fInt (by decide))
    have h_fNac : g.fNac = g'.fNac := List.singleton_inj.1 (h .fNac (by decide))
    have h_fPyl : g.fPyl = g'.fPyl := List.singleton_inj.1 (h .fPyl (by decide))
    have h_fStrut : g.fStrut = g'.fStrut := List.singleton_inj.1 (h .fStrut (by decide))
    have h_fVt : g.fVt = g'.fVt := List.singleton_inj.1 (h .fVt (by decide))
    have h_fWing : g.fWing = g'.fWing := List.singleton_inj.1 (h .fWing (by decide))
    have h_fExcr : g.fExcr = g'.fExcr := List.singleton_inj.1 (h .fExcr (by decide))
    have h_pctExcr : g.pctExcr = g'.pctExcr := List.singleton_inj.1 (h .pctExcr (by decide))
    have h_strutChord : g.strutChord = g'.strutChord := List.singleton_inj.1 (h .strutChord (by decide))
    have h_e := engines_ext _ _ ho.2 h_ffNac h_nacLen h_nacArea
    have h_s := ho.1
    simp only [Geom.out, Geom.sa5, Geom.cdpo, Geom.fe, Geom.fef, Geom.few, Geom.fen, Geom.fevt, Geom.feht, Geom.festrt, Geom.feiwf, Geom.feexcr, Geom.cdw0, Geom.fstrt, Geom.reli, Geom.cf, h_mach, h_sos, h_nu, h_ffWing, h_ffFus, h_ffVtail, h_ffHtail, h_wfIntf, h_strutIntf, h_cd0Inc, h_feFusInc, h_strutRatio, h_chord, h_htChord, h_vtChord, h_fusLen, h_htArea, h_fusArea, h_wingArea, h_vtArea, h_feInt, h_shield, h_fFus, h_fHt, h_fInt, h_fNac, h_fPyl, h_fStrut, h_fVt, h_fWing, h_fExcr, h_pctExcr, h_strutChord, h_e, h_s]
  case sa6 =>
    have h_mach : g.mach = g'.mach := List.singleton_inj.1 (h .mach (by decide))
    have h_sos : g.sos = g'.sos := List.singleton_inj.1 (h .sos (by decide))
    have h_nu : g.nu = g'.nu := List.singleton_inj.1 (h .nu (by decide))
    have h_ffWing : g.ffWing = g'.ffWing := List.singleton_inj.1 (h .ffWing (by decide))
    have h_chord : g.chord = g'.chord := List.singleton_inj.1 (h .chord (by decide))
    simp only [Geom.out, Geom.sa6, Geom.reli, h_mach, h_sos, h_nu, h_ffWing, h_chord]
  case sa7 =>
    have h_mach : g.mach = g'.mach := List.singleton_inj.1 (h .mach (by decide))
    have h_sos : g.sos = g'.sos := List.singleton_inj.1 (h .sos (by decide))
    have h_nu : g.nu = g'.nu := List.singleton_inj.1 (h .nu (by decide))
    have h_ufac : g.ufac = g'.ufac := List.singleton_inj.1 (h .ufac (by decide))
    have h_ffWing : g.ffWing = g'.ffWing := List.singleton_inj.1 (h .ffWing (by decide))
    have h_ffFus : g.ffFus = g'.ffFus := List.singleton_inj.1 (h .ffFus (by decide))
    have h_ffNac : g.engines.map Engine.ff = g'.engines.map Engine.ff := h .ffNac (by decide)
    have h_ffVtail : g.ffVtail = g'.ffVtail := List.singleton_inj.1 (h .ffVtail (by decide))
    have h_ffHtail : g.ffHtail = g'.ffHtail := List.singleton_inj.1 (h .ffHtail (by decide))
    have h_wfIntf : g.wfIntf = g'.wfIntf := List.singleton_inj.1 (h .wfIntf (by decide))
    have h_strutIntf : g.strutIntf = g'.strutIntf := List.singleton_inj.1 (h .strutIntf (by decide))
    have h_cd0Inc : g.cd0Inc = g'.cd0Inc := List.singleton_inj.1 (h .cd0Inc (by decide))
    have h_feFusInc : g.feFusInc = g'.feFusInc := List.singleton_inj.1 (h .feFusInc (by decide))
    have h_taper : g.taper = g'.taper := List.singleton_inj.1 (h .taper (by decide))
    have h_strutRatio : g.strutRatio = g'.strutRatio := List.singleton_inj.1 (h .strutRatio (by decide))
    have h_chord : g.chord = g'.chord := List.singleton_inj.1 (h .chord (by decide))
    have h_htChord : g.htChord = g'.htChord := List.singleton_inj.1 (h .htChord (by decide))
    have h_vtChord : g.vtChord = g'.vtChord := List.singleton_inj.1 (h .vtChord (by decide))
    have h_fusLen : g.fusLen = g'.fusLen := List.singleton_inj.1 (h .fusLen (by decide))
    have h_nacLen : g.engines.map Engine.len = g'.engines.map Engine.len := h .nacLen (by decide)
    have h_htArea : g.htArea = g'.htArea := List.singleton_inj.1 (h .htArea (by decide))
    have h_fusArea : g.fusArea = g'.fusArea := List.singleton_inj.1 (h .fusArea (by decide))
    have h_nacArea : g.engines.map Engine.area = g'.engines.map Engine.area := h .nacArea (by decide)
    have h_wingArea : g.wingArea = g'.wingArea := List.singleton_inj.1 (h .wingArea (by decide))
    have h_vtArea : g.vtArea = g'.vtArea := List.singleton_inj.1 (h .vtArea (by decide))
    have h_feInt : g.feInt = g'.feInt := List.singleton_inj.1 (h .feInt (by decide))
    have h_shield : g.shield = g'.shield := List.singleton_inj.1 (h .shield (by decide))
    have h_ar : g.ar = g'.ar := List.singleton_inj.1 (h .ar (by decide))
    have h_sweep : g.sweep = g'.sweep := List.singleton_inj.1 (h .sweep (by decide))
    have h_siwb : g.siwb = g'.siwb := List.singleton_inj.1 (h .siwb (by decide))
    have h_strutChord : g.strutChord = g'.strutChord := List.singleton_inj.1 (h .strutChord (by decide))
    have h_fFus : g.fFus = g'.fFus := List.singleton_inj.1 (h .fFus (by decide))
    have h_fHt : g.fHt = g'.fHt := List.singleton_inj.1 (h .fHt (by decide))
    have h_fInt : g.fInt = g'.fInt := List.singleton_inj.1 (h .fInt (by decide))
    have h_fNac : g.fNac = g'.fNac := List.singleton_inj.1 (h .fNac (by decide))
    have h_fPyl : g.fPyl = g'.fPyl := List.singleton_inj.1 (h .fPyl (by decide))
    have h_fStrut : g.fStrut = g'.fStrut := List.singleton_inj.1 (h .fStrut (by decide))
    have h_fVt : g.fVt = g'.fVt := List.singleton_inj.1 (h .fVt (by decide))
    have h_fWing : g.fWing = g'.fWing := List.singleton_inj.1 (h .fWing (by decide))
    have h_fExcr : g.fExcr = g'.fExcr := List.singleton_inj.1 (h .fExcr (by decide))
    have h_pctExcr : g.pctExcr = g'.pctExcr := List.singleton_inj.1 (h .pctExcr (by decide))
    have h_e := engines_ext _ _ ho.2 h_ffNac h_nacLen h_nacArea
    have h_s := ho.1
    simp only [Geom.out, Geom.sa7, Geom.see, Geom.cdpo, Geom.fe, Geom.fef, Geom.few, Geom.fen, Geom.fevt, Geom.feht, Geom.festrt, Geom.feiwf, Geom.feexcr, Geom.cdw0, Geom.fstrt, Geom.reli, Geom.cf, h_mach, h_sos, h_nu, h_ufac, h_ffWing, h_ffFus, h_ffVtail, h_ffHtail, h_wfIntf, h_strutIntf, h_cd0Inc, h_feFusInc, h_strutRatio, h_chord, h_htChord, h_vtChord, h_fusLen, h_htArea, h_fusArea, h_wingArea, h_vtArea, h_feInt, h_shield, h_ar, h_sweep, h_siwb, h_strutChord, h_fFus, h_fHt, h_fInt, h_fNac, h_fPyl, h_fStrut, h_fVt, h_fWing, h_fExcr, h_pctExcr, h_e, h_s]
  case cf =>
    have h_mach : g.mach = g'.mach := List.singleton_inj.1 (h .mach (by decide))
    simp only [Geom.out, Geom.cf, h_mach]

/-- An aircraft with a strut and one engine; the strut chord and the drag factors are given, the rest is simple. -/
def plane (f : Nm → ℝ) : Geom :=
  { mach := 0, sos := 20, nu := 1, ufac := 1, ffWing := 1, ffFus := 1, ffVtail := 1, ffHtail := 1, wfIntf := 1, strutIntf := 1, cd0Inc := 1, feFusInc := 1, xmp := 1, xmt := 1, ar := 1, sweep := 0, taper := 1, strutRatio := 1, chord := 1, htChord := 1, vtChord := 1, fusLen := 1, htArea := 1, fusArea := 1, wingArea := 1, vtArea := 1, tc := 1, strutChord := f .strutChord, feInt := 0, shield := 1, siwb := 1, fFus := f .fFus, fHt := f .fHt, fInt := f .fInt, fNac := f .fNac, fPyl := f .fPyl, fStrut := f .fStrut, fVt := f .fVt, fWing := f .fWing, fExcr := f .fExcr, pctExcr := f .pctExcr,
    engines := [⟨1, 1, 1, 1⟩], hasStrut := true }

theorem plane_cd (f : Nm → ℝ) (c K : ℝ) (hc : (plane f).cf = c) (hK : Geom.fre (plane f).reli 1 = K) :
    (plane f).cdw0 = f .fWing * (c * K) ∧
    (plane f).cdpo = f .fFus * (c * K) + 1 + f .fVt * (c * K) + f .fHt * (c * K) + f .fPyl * f .fNac * (c * K)
      - f .fInt * (f .fWing * (c * K)) + f .fStrut * (c * Geom.fre (plane f).reli (f .strutChord)) + 1
      + f .fExcr * f .pctExcr * (f .fWing * (c * K) + f .fFus * (c * K) + 1 + f .fVt * (c * K) + f .fHt * (c * K)
        + f .fPyl * f .fNac * (c * K) + f .fStrut * (c * Geom.fre (plane f).reli (f .strutChord))) := by
  have w : (plane f).few = f .fWing * (c * K) := by
    show (1 : ℝ) * 1 * (f .fWing * (plane f).cf) * Geom.fre (plane f).reli 1 = _
    rw [hc, hK]; ring
  have w0 : (plane f).cdw0 = f .fWing * (c * K) := by
    show (plane f).few / 1 = _
    rw [w, div_one]
  have h1 : (plane f).fef = f .fFus * (c * K) + 1 := by
    show (1 : ℝ) * (f .fFus * (plane f).cf) * Geom.fre (plane f).reli 1 * 1 + 1 = _
    rw [hc, hK]; ring
  have h2 : (plane f).fevt = f .fVt * (c * K) := by
    show (1 : ℝ) * 1 * (f .fVt * (plane f).cf) * Geom.fre (plane f).reli 1 = _
    rw [hc, hK]; ring
  have h3 : (plane f).feht = f .fHt * (c * K) := by
    show (1 : ℝ) * 1 * (f .fHt * (plane f).cf) * Geom.fre (plane f).reli 1 = _
    rw [hc, hK]; ring
  have h4 : (plane f).fen = f .fPyl * f .fNac * (c * K) := by
    show f .fPyl * (f .fNac * (plane f).cf) * (((1 : ℕ) : ℝ) * (1 * 1 * Geom.fre (plane f).reli 1) + 0) = _
    rw [hc, hK]; push_cast; ring
  have h5 : (plane f).festrt = f .fStrut * (c * Geom.fre (plane f).reli (f .strutChord)) := by
    show (1 : ℝ) * 1 * 1 * (f .fStrut * (plane f).cf) * Geom.fre (plane f).reli (f .strutChord) = _
    rw [hc]; ring
  have h6 : (plane f).feiwf = - (f .fInt * (f .fWing * (c * K))) := by
    show f .fInt * ((1 : ℝ) * (0 - (plane f).cdw0 * 1)) = _
    rw [w0]; ring
  refine ⟨w0, ?_⟩
  show ((plane f).few + (plane f).fef + (plane f).fevt + (plane f).feht + (plane f).fen + (plane f).feiwf + (plane f).festrt + 1 * 1
    + f .fExcr * f .pctExcr * ((plane f).few + (plane f).fef + (plane f).fevt + (plane f).feht + (plane f).fen + (plane f).festrt)
    - (plane f).few) / 1 = _
  rw [w, h1, h2, h3, h4, h5, h6]; ring

/-- The hypotheses about the wing factor and about the good Reynolds number hold for such an aircraft. -/
example : ∃ g : Geom, 1 < g.reli ∧ ({ g with fWing := 2 } : Geom).sa5 + ({ g with fWing := 2 } : Geom).sa6 * ({ g with fWing := 2 } : Geom).cf <
    g.sa5 + g.sa6 * g.cf := by
  have hr : 1 < (plane fun n => if n = .fExcr then 0 else 1).reli :=
    Geom.reli_good _ le_rfl (by show (20 : ℝ) ≤ 20 / 1; norm_num)
  refine ⟨plane fun n => if n = .fExcr then 0 else 1, hr, Geom.wing_factor_violated _ 2 ?_ ?_ ?_ ?_ ?_ ?_⟩
  · show (0 : ℝ) < 1; norm_num
  · show (0 : ℝ) < 1; norm_num
  · show 1 < _ * (1 : ℝ); rw [mul_one]; exact hr
  · simp [plane]
  · simp [plane]
  · simp [plane]

/-- Each of the missing dependencies is one: two aircraft that differ in this input alone have different parameters. -/
theorem missing_violated (o : Out) (n : Nm) (hn : n ∈ missing o) :
    n ∉ declared o ∧ ∃ g g' : Geom, SameOpts g g' ∧ (∀ m, m ≠ n → g.get m = g'.get m) ∧ g.out o ≠ g'.out o := by
  have hr : 1 < (plane fun _ => 1).reli := Geom.reli_good _ le_rfl (by show (20 : ℝ) ≤ 20 / 1; norm_num)
  have hanti : Geom.fre (plane fun _ => 1).reli 2 < Geom.fre (plane fun _ => 1).reli 1 :=
    Geom.fre_strictAnti _ _ _ hr (by linarith) (by norm_num)
  have hk1 : 0 < Geom.fre (plane fun _ => 1).reli 1 := Geom.fre_pos _ _ (by linarith)
  have hc := (plane fun _ => 1).cf_pos
  generalize hK : Geom.fre (plane fun _ => 1).reli 1 = K at *
  generalize hK2 : Geom.fre (plane fun _ => 1).reli 2 = K2 at *
  generalize hC : (plane fun _ => 1).cf = c at *
  have hck : 0 < c * K := mul_pos hc hk1
  have hck2 : c * K2 < c * K := mul_lt_mul_of_pos_left hanti hc
  have e7 : ∀ f, (plane f).out .sa7 = 1 / π + 1.1938 / π * ((plane f).cdw0 + (plane f).cdpo) := by
    intro f
    have := (plane f).sa7_eq (by show (1 : ℝ) ≠ 0; norm_num)
    rw [show (plane f).ar = 1 from rfl, show (plane f).ufac = 1 from rfl, show (plane f).siwb = 1 from rfl,
      show (plane f).sweep = 0 from rfl] at this
    simp only [deg2rad, zero_mul, zero_div, cos_zero, one_pow, div_one, mul_one] at this
    exact this
  have hpi : (1.1938 : ℝ) / π ≠ 0 := by positivity
  have val := fun f => plane_cd f c K hC hK
  have v1 := val fun _ => 1
  have v2 := val fun m => if m = n then 2 else 1
  rw [show ∀ f, (plane f).reli = (plane fun _ => 1).reli from fun _ => rfl] at v1 v2
  have hd : n ∉ declared o := by
    cases o <;> simp only [missing, List.not_mem_nil, dragFactors, List.mem_cons, or_false] at hn
    · subst hn; decide
    · rcases hn with rfl | rfl | rfl | rfl | rfl | rfl | rfl | rfl | rfl | rfl | rfl <;> decide
  refine ⟨hd, plane fun _ => 1, plane fun m => if m = n then 2 else 1, ⟨rfl, rfl⟩, ?_, ?_⟩
  · intro m hm
    cases m <;> first | rfl | simp only [Geom.get, plane, hm, if_false]
  · cases o <;> simp only [missing, List.not_mem_nil, dragFactors, List.mem_cons, or_false] at hn
    · subst hn
      simp only [reduceCtorEq, if_true, if_false, hK, hK2] at v1 v2
      show (plane _).cdpo ≠ (plane _).cdpo
      rw [v1.2, v2.2]
      intro e; linarith
    · rw [e7, e7]
      intro e
      have e := mul_left_cancel₀ hpi (add_left_cancel e)
      rw [v1.1, v1.2, v2.1, v2.2] at e
      rcases hn with rfl | rfl | rfl | rfl | rfl | rfl | rfl | rfl | rfl | rfl | rfl <;>
        simp only [reduceCtorEq, if_true, if_false, hK, hK2] at e <;> linarith


/-! ### Clean drag coefficient -/

namespace Clean

/-- The divergence Mach number falls with lift. -/
theorem machDiv_anti (c : Clean) (h : c.sa2 ≤ 0) (x : ℝ) (hx : c.cl ≤ x) : ({ c with cl := x } : Clean).machDiv ≤ c.machDiv := by
  show c.sa1 + c.sa2 * x + c.shift ≤ c.sa1 + c.sa2 * c.cl + c.shift
  nlinarith

/-- Above the divergence Mach number the increment is between half the cubic and the cubic. -/
theorem delcdm_above (c : Clean) (h : c.machDiv ≤ c.mach) :
    5 * (c.mach - c.machDiv) ^ 3 ≤ c.delcdm ∧ c.delcdm ≤ 10 * (c.mach - c.machDiv) ^ 3 := by
  unfold delcdm
  have h0 : 0 ≤ (c.mach - c.machDiv) ^ 3 := pow_nonneg (by linarith) 3
  have h1 : (1 : ℝ) / 2 ≤ sigX c.mach c.machDiv 0.005 := by
    unfold sigX
    have hd : 0 ≤ (c.mach - c.machDiv) / 0.005 := div_nonneg (by linarith) (by norm_num)
    rw [if_pos (by linarith)]
    have : exp (-(c.mach - c.machDiv) / 0.005) ≤ 1 := exp_le_one_iff.2 (by rw [neg_div]; linarith)
    have h2 := exp_pos (-(c.mach - c.machDiv) / 0.005)
    rw [div_le_div_iff₀ (by norm_num) (by positivity)]
    linarith
  have h2 := (Geom.sigX_range c.mach c.machDiv 0.005).2
  constructor <;> nlinarith

/-- Below it the increment is negative: compressibility lowers the drag. -/
theorem delcdm_violated (c : Clean) (h : c.mach < c.machDiv) (hn : c.machDiv - c.mach < 1.6) : c.delcdm < 0 := by
  unfold delcdm sigX
  have hq : (c.mach - c.machDiv) / 0.005 > -320 := by
    rw [gt_iff_lt, lt_div_iff₀ (by norm_num)]; linarith
  rw [if_pos hq]
  have h1 : (c.mach - c.machDiv) ^ 3 < 0 := by
    have : c.mach - c.machDiv < 0 := by linarith
    exact (Odd.pow_neg (by decide) this)
  have := exp_pos (-(c.mach - c.machDiv) / 0.005)
  exact mul_neg_of_pos_of_neg (by positivity) (by linarith)

/-- By less than a tenth of a drag count. -/
theorem delcdm_partial (c : Clean) : -(7.5e-6) ≤ c.delcdm := by
  rcases le_or_gt c.machDiv c.mach with h | h
  · have := (delcdm_above c h).1
    have : 0 ≤ (c.mach - c.machDiv) ^ 3 := pow_nonneg (by linarith) 3
    linarith
  · unfold delcdm sigX
    split_ifs
    · obtain ⟨d, hd⟩ : ∃ d, d = c.machDiv - c.mach := ⟨_, rfl⟩
      have e1 : c.mach - c.machDiv = -d := by linarith
      have hd0 : 0 < d := by linarith
      rw [e1, neg_neg]
      obtain ⟨x, hx⟩ : ∃ x, x = d / 0.005 := ⟨_, rfl⟩
      have hdx : d = 0.005 * x := by rw [hx]; ring
      have hx0 : 0 < x := by rw [hx]; positivity
      rw [← hx]
      have he : x ^ 3 / 6 ≤ exp x := by
        have := pow_div_factorial_le_exp x hx0.le 3
        have e : ((Nat.factorial 3 : ℕ) : ℝ) = 6 := by norm_num [Nat.factorial]
        rw [e] at this
        exact this
      have hp : 0 < 1 + exp x := by positivity
      rw [hdx, show 1 / (1 + exp x) * (10 * (-(0.005 * x)) ^ 3) = -(1.25e-6 * x ^ 3 / (1 + exp x)) by ring]
      rw [neg_le_neg_iff, div_le_iff₀ hp]
      nlinarith [exp_pos x]
    · norm_num

/-- The coefficient of one node with its factor. -/
noncomputable def scaled (c : Clean) : ℝ := open Classical in c.cd * (if c.mach ≥ 1 then c.supFactor else c.subFactor)

end Clean

theorem foldl_set_get {α : Type} (v : ℕ → α) (l0 : List α) : ∀ (idx : List ℕ) (i : ℕ),
    (idx.foldl (fun l k => l.set k (v k)) l0)[i]? = if i ∈ idx then l0[i]?.map (fun _ => v i) else l0[i]? := by
  intro idx
  induction idx generalizing l0 with
  | nil => intro i; simp
  | cons k idx ih =>
    intro i
    simp only [List.foldl_cons, ih, List.getElem?_set, List.mem_cons]
    by_cases hk : k = i
    · subst hk
      simp only [true_or, if_true]
      by_cases hlt : k < l0.length
      · simp [hlt]
      · simp [hlt, List.getElem?_eq_none (not_lt.1 hlt)]
    · have : ¬ i = k := fun e => hk e.symm
      simp only [hk, if_false, this, false_or]

/-- Each node is multiplied by the factor of its own speed range. -/
theorem cdScaled_eq (sub sup : ℝ) (cs : List Clean) (h : ∀ c ∈ cs, c.subFactor = sub ∧ c.supFactor = sup) :
    cdScaled sub sup cs = cs.map Clean.scaled := by
  refine List.ext_getElem? fun i => ?_
  unfold cdScaled
  dsimp only
  rw [foldl_set_get (fun k => ((cs.map Clean.cd)[k]?.getD 0) * sup)]
  simp only [List.mem_filter, List.mem_range, List.getElem?_map, Option.map_map]
  cases hi : cs[i]? with
  | none => simp
  | some c =>
    have hlt : i < cs.length := (List.getElem?_eq_some_iff.1 hi).1
    obtain ⟨h1, h2⟩ := h c (List.mem_of_getElem? hi)
    by_cases hm : c.mach ≥ 1
    · simp [hlt, Clean.scaled, hm, h2]
    · simp [hlt, Clean.scaled, hm, h1]

/-- The inputs without a declared partial (aviary/subsystems/aerodynamics/gasp_based/gaspaero.py:1379-1399) have one: the lift and
zero lift factors, and the factor of the speed range. -/
theorem clean_missing_violated (c : Clean) (hm : c.mach < 1) :
    HasDerivAt (fun t => ({ c with liftFactor := t } : Clean).scaled) (c.sa7 * c.cl ^ 2 * c.subFactor) c.liftFactor ∧
    HasDerivAt (fun t => ({ c with zeroFactor := t } : Clean).scaled) ((c.sa5 + c.sa6 * c.cf) * c.subFactor) c.zeroFactor ∧
    HasDerivAt (fun t => ({ c with subFactor := t } : Clean).scaled) c.cd c.subFactor := by
  have hn : ¬ c.mach ≥ 1 := not_le.2 hm
  have e : ∀ d : Clean, d.mach = c.mach → d.scaled = d.cd * d.subFactor := by
    intro d hd
    unfold Clean.scaled
    rw [hd, if_neg hn]
  refine ⟨?_, ?_, ?_⟩
  · have h := (((hasDerivAt_id c.liftFactor).const_mul (c.sa7 * c.cl ^ 2)).add_const
      ((c.sa5 + c.sa6 * c.cf) * c.zeroFactor + c.fcmpc * c.delcdm)).mul_const c.subFactor
    refine hd_congr h (fun t => ?_) (by ring)
    rw [e { c with liftFactor := t } rfl]
    show ((c.sa5 + c.sa6 * c.cf) * c.zeroFactor + c.sa7 * c.cl ^ 2 * t + c.fcmpc * c.delcdm) * c.subFactor = _
    simp only [id]; ring
  · have h := (((hasDerivAt_id c.zeroFactor).const_mul (c.sa5 + c.sa6 * c.cf)).add_const
      (c.sa7 * c.cl ^ 2 * c.liftFactor + c.fcmpc * c.delcdm)).mul_const c.subFactor
    refine hd_congr h (fun t => ?_) (by ring)
    rw [e { c with zeroFactor := t } rfl]
    show ((c.sa5 + c.sa6 * c.cf) * t + c.sa7 * c.cl ^ 2 * c.liftFactor + c.fcmpc * c.delcdm) * c.subFactor = _
    simp only [id]; ring
  · have h := (hasDerivAt_id c.subFactor).const_mul c.cd
    refine hd_congr h (fun t => ?_) (by ring)
    rw [e { c with subFactor := t } rfl]
    rfl

/-- The derivatives are not zero for an aircraft with drag. -/
example : ∃ c : Clean, c.mach < 1 ∧ c.sa7 * c.cl ^ 2 * c.subFactor ≠ 0 ∧ (c.sa5 + c.sa6 * c.cf) * c.subFactor ≠ 0 :=
  ⟨⟨0.5, 1, 0, 1, 1, 1, 1, 1, 1, 1, 1, 1, 1, 1⟩, by norm_num, by norm_num, by norm_num⟩

/-! ### Low speed -/

namespace Low

theorem betag_range (l : Low) (h : 0 ≤ l.rel) : 0 < l.betag ∧ l.betag ≤ 1 := by
  unfold betag
  constructor
  · have : l.rel < √(1 + l.rel ^ 2) := lt_sqrt_of_sq_lt (by linarith)
    linarith
  · have : √(1 + l.rel ^ 2) ≤ 1 + l.rel := by
      rw [sqrt_le_left (by linarith)]; nlinarith
    linarith

theorem betag_pos (l : Low) : 0 < l.betag := by
  unfold betag
  have : l.rel < √(1 + l.rel ^ 2) := by
    rcases le_or_gt 0 l.rel with h | h
    · exact lt_sqrt_of_sq_lt (by linarith)
    · exact lt_of_lt_of_le h (sqrt_nonneg _)
  linarith

theorem sig_range (l : Low) (h : 0 ≤ l.rel) : 0 < l.sig ∧ l.sig ≤ 1 := by
  unfold sig
  refine ⟨exp_pos _, exp_le_one_iff.2 ?_⟩
  have : 0 ≤ l.rel ^ (0.768 : ℝ) := rpow_nonneg h _
  linarith

/-- The ground never adds drag, as long as the reduction of lift is below the reduction of induced drag. -/
theorem ground_nonpos (l : Low) (h0 : 0 ≤ l.c1) (h1 : l.c1 ≤ l.sig) (h2 : l.c1 < 1) (hi : 0 ≤ l.cdi) (hs : 0 ≤ l.sa6 * l.cf) :
    l.ground ≤ 0 := by
  unfold ground
  have a : 0 ≤ (l.sig - l.c1) * l.cdi / (1 - l.c1) := div_nonneg (mul_nonneg (by linarith) hi) (by linarith)
  have b : 0 ≤ l.c1 * (l.sa6 * l.cf) := mul_nonneg h0 hs
  have e : -(l.sig - l.c1) * l.cdi / (1 - l.c1) = -((l.sig - l.c1) * l.cdi / (1 - l.c1)) := by ring
  rw [e, mul_assoc]; linarith

/-- Far above the ground there is no ground effect. -/
theorem ground_far (l : Low) (hs : 0 < l.span) :
    Filter.Tendsto (fun a => ({ l with alt := a } : Low).ground) Filter.atTop (nhds 0) := by
  have hh : Filter.Tendsto (fun a => ({ l with alt := a } : Low).hac) Filter.atTop Filter.atTop := by
    show Filter.Tendsto (fun a => l.height + a - l.airport) Filter.atTop Filter.atTop
    exact Filter.tendsto_atTop_add_const_right _ _ (Filter.tendsto_atTop_add_const_left _ _ Filter.tendsto_id)
  have hr : Filter.Tendsto (fun a => ({ l with alt := a } : Low).rel) Filter.atTop Filter.atTop := by
    have : Filter.Tendsto (fun a => (2 * ({ l with alt := a } : Low).hac + -(sin (deg2rad l.flap) * l.flapChord * l.chord)) / l.span)
        Filter.atTop Filter.atTop :=
      (Filter.tendsto_atTop_add_const_right _ _ (hh.const_mul_atTop (by norm_num))).atTop_div_const hs
    exact this
  have hsig : Filter.Tendsto (fun a => ({ l with alt := a } : Low).sig) Filter.atTop (nhds 0) := by
    have h1 : Filter.Tendsto (fun a => ({ l with alt := a } : Low).rel ^ (0.768 : ℝ)) Filter.atTop Filter.atTop :=
      (tendsto_rpow_atTop (by norm_num)).comp hr
    have h2 : Filter.Tendsto (fun a => -2.48 * ({ l with alt := a } : Low).rel ^ (0.768 : ℝ)) Filter.atTop Filter.atBot :=
      h1.const_mul_atTop_of_neg (by norm_num)
    exact tendsto_exp_atBot.comp h2
  have hc : Filter.Tendsto (fun a => ({ l with alt := a } : Low).c1) Filter.atTop (nhds 0) := by
    have h1 : Filter.Tendsto (fun a => |l.cl| / (12.5664 * ({ l with alt := a } : Low).hac)) Filter.atTop (nhds 0) :=
      (hh.const_mul_atTop (by norm_num : (0 : ℝ) < 12.5664)).const_div_atTop _
    refine squeeze_zero_norm' ?_ h1
    filter_upwards [hh.eventually_gt_atTop 0, hr.eventually_ge_atTop 0] with a ha hb
    obtain ⟨b1, b2⟩ := betag_range { l with alt := a } hb
    have hpos : 0 < 12.5664 * ({ l with alt := a } : Low).hac := by positivity
    show |({ l with alt := a } : Low).betag * l.cl / (12.5664 * ({ l with alt := a } : Low).hac)| ≤ _
    rw [abs_div, abs_of_pos hpos, abs_mul, abs_of_pos b1]
    refine div_le_div_of_nonneg_right ?_ hpos.le
    nlinarith [abs_nonneg l.cl]
  have h1 : Filter.Tendsto (fun a => -(({ l with alt := a } : Low).sig - ({ l with alt := a } : Low).c1) * l.cdi /
      (1 - ({ l with alt := a } : Low).c1) - ({ l with alt := a } : Low).c1 * l.sa6 * l.cf) Filter.atTop
      (nhds (-(0 - 0) * l.cdi / (1 - 0) - 0 * l.sa6 * l.cf)) :=
    ((((hsig.sub hc).neg).mul_const _).div (tendsto_const_nhds.sub hc) (by norm_num)).sub ((hc.mul_const _).mul_const _)
  rw [show -(0 - 0) * l.cdi / (1 - 0) - 0 * l.sa6 * l.cf = 0 by simp] at h1
  exact h1

/-- The drag increment of the landing gear vanishes at a flap deflection of 110 degrees and changes sign there. -/
theorem gear_pos_iff (l : Low) (hw : 0 < l.weight) (ha : 0 < l.area) : 0 < l.gear ↔ l.flap < 50 / 0.454545 := by
  unfold gear
  have : 0 < 0.0033 * l.weight ^ (0.785 : ℝ) / l.area := by positivity
  rw [mul_pos_iff_of_pos_left this, lt_div_iff₀ (by norm_num)]
  constructor <;> intro h <;> linarith

/-- All lengths in other units. -/
def scale (l : Low) (k : ℝ) : Low :=
  { l with alt := k * l.alt, height := k * l.height, airport := k * l.airport, chord := k * l.chord, span := k * l.span }

theorem scale_parts (l : Low) (k : ℝ) (hk : 0 < k) :
    (l.scale k).sig = l.sig ∧ (l.scale k).betag = l.betag ∧ (l.scale k).cdi = l.cdi ∧ (l.scale k).c1 = l.c1 / k := by
  have hh : (l.scale k).hac = k * l.hac := by
    show k * l.height + k * l.alt - k * l.airport = k * (l.height + l.alt - l.airport); ring
  have hr : (l.scale k).rel = l.rel := by
    show (2 * (l.scale k).hac - sin (deg2rad l.flap) * l.flapChord * (k * l.chord)) / (k * l.span) = _
    rw [hh, show 2 * (k * l.hac) - sin (deg2rad l.flap) * l.flapChord * (k * l.chord) =
      k * (2 * l.hac - sin (deg2rad l.flap) * l.flapChord * l.chord) by ring, mul_div_mul_left _ _ hk.ne']
    rfl
  have hb : (l.scale k).betag = l.betag := by unfold betag; rw [hr]
  refine ⟨by unfold sig; rw [hr], hb, rfl, ?_⟩
  show (l.scale k).betag * l.cl / (12.5664 * (l.scale k).hac) = l.betag * l.cl / (12.5664 * l.hac) / k
  rw [hb, hh, div_div]
  congr 1; ring

/-- The drag coefficient, a number without dimension, depends on the unit of length: here for an aircraft without induced drag. -/
theorem scale_violated (l : Low) (k : ℝ) (hk : 0 < k) (hk1 : k ≠ 1) (h7 : l.sa7 = 0) (hf : l.sa6 * l.cf ≠ 0) (hc : l.cl ≠ 0)
    (hh : l.hac ≠ 0) : (l.scale k).cdBase ≠ l.cdBase := by
  obtain ⟨-, -, e3, e4⟩ := l.scale_parts k hk
  have hi : l.cdi = 0 := by unfold cdi; rw [h7]; ring
  have key : ∀ m : Low, m.cdi = 0 → m.sa5 = l.sa5 → m.sa6 = l.sa6 → m.cf = l.cf →
      m.cdBase = l.sa5 + l.sa6 * l.cf - m.c1 * (l.sa6 * l.cf) := by
    intro m h1 h2 h3 h4
    unfold cdBase ground
    rw [h1, h2, h3, h4]; ring
  rw [key _ (e3.trans hi) rfl rfl rfl, key l hi rfl rfl rfl, e4]
  intro e
  have h1 : l.c1 / k * (l.sa6 * l.cf) = l.c1 * (l.sa6 * l.cf) := by linarith
  have h2 := mul_right_cancel₀ hf h1
  have hc1 : l.c1 ≠ 0 := by
    unfold c1
    exact div_ne_zero (mul_ne_zero l.betag_pos.ne' hc) (mul_ne_zero (by norm_num) hh)
  rw [div_eq_iff hk.ne'] at h2
  exact hk1 (mul_left_cancel₀ hc1 (by rw [mul_one]; exact h2.symm))

example : ((⟨0, 1, 1, 0, 10, 0, 0, 0, 0, 0, 1, 1, 1, 1, 1, 1, 1, 0⟩ : Low).scale 3).cdBase ≠
    (⟨0, 1, 1, 0, 10, 0, 0, 0, 0, 0, 1, 1, 1, 1, 1, 1, 1, 0⟩ : Low).cdBase :=
  scale_violated _ 3 (by norm_num) (by norm_num) rfl (by norm_num) (by norm_num) (by norm_num [hac])

end Low

/-! ### Ground effect on lift -/

namespace Ground

/-- The factor is never below one, and it is one from ten spans on. -/
theorem kclge_ge (l : Ground) : 1 ≤ l.kclge := by
  unfold kclge
  split_ifs
  · exact le_rfl
  · exact le_max_right _ _

theorem kclge_high (l : Ground) (h : 10 ≤ l.hac / l.span) : l.kclge = 1 := by
  unfold kclge; rw [if_pos h]

theorem kclge_low (l : Ground) (h : l.hac / l.span < 10) (h1 : 1 ≤ l.raw) : l.kclge = l.raw := by
  unfold kclge; rw [if_neg (not_le.2 h), max_eq_left h1]

/-- All lengths in other units. -/
def scale (l : Ground) (k : ℝ) : Ground :=
  { l with alt := k * l.alt, height := k * l.height, airport := k * l.airport, chord := k * l.chord, span := k * l.span }

/-- The factor does not depend on the unit of length. -/
theorem kclge_scale (l : Ground) (k : ℝ) (hk : 0 < k) : (l.scale k).kclge = l.kclge := by
  have hh : (l.scale k).hac = k * l.hac := by
    show k * l.height + k * l.alt - k * l.airport = k * (l.height + l.alt - l.airport); ring
  have hr : (l.scale k).rel = l.rel := by
    show (2 * (l.scale k).hac - sin (deg2rad l.flap) * l.flapChord * (k * l.chord)) / (k * l.span) = _
    rw [hh, show 2 * (k * l.hac) - sin (deg2rad l.flap) * l.flapChord * (k * l.chord) =
      k * (2 * l.hac - sin (deg2rad l.flap) * l.flapChord * l.chord) by ring, mul_div_mul_left _ _ hk.ne']
    rfl
  have hq : ∀ x : ℝ, x * (k * l.hac) / (k * l.chord) = x * l.hac / l.chord := by
    intro x
    rw [show x * (k * l.hac) = k * (x * l.hac) by ring, mul_div_mul_left _ _ hk.ne']
  have hs : (l.scale k).sig = l.sig := by unfold sig; rw [hr]
  have hb : (l.scale k).betag = l.betag := by unfold betag; rw [hr]
  have h4 : (l.scale k).c4 = l.c4 := by
    show (l.scale k).betag / (12.5664 * (l.scale k).hac / (k * l.chord)) = _
    rw [hb, hh, hq]; rfl
  have hraw : (l.scale k).raw = l.raw := by
    show 1 + (l.scale k).sig - (l.scale k).sig * l.ar * cos l.rlmc2 / l.c3 -
      (l.scale k).c4 * (l.cloge - l.slope / (16 * (l.scale k).hac / (k * l.chord))) = _
    rw [hs, h4, hh, hq]; rfl
  unfold kclge
  rw [hraw, hh]
  show (if k * l.hac / (k * l.span) ≥ 10 then _ else _) = _
  rw [mul_div_mul_left _ _ hk.ne']

/-- The drag formula has the coefficient of the lift formula without the chord: they agree for a chord of one foot only. -/
theorem c1_partial (l : Low) (g : Ground) (h1 : g.hac = l.hac) (h2 : g.rel = l.rel) (h3 : g.chord ≠ 0) :
    l.c1 * g.chord = g.c4 * l.cl := by
  have hb : g.betag = l.betag := by
    unfold betag Low.betag
    rw [h2, sqrt_eq_rpow]; norm_num
  unfold Low.c1 c4
  rw [hb, h1]
  by_cases h0 : l.hac = 0
  · rw [h0]; simp
  · field_simp

end Ground

/-! ### Geometry of the downwash, sweep and induced drag -/

/-- The ratios give the geometry back in chords of the wing: the aspect ratio of the tail, its arm, the gap. -/
theorem tail_geometry (x : Lift) (b S bt St c arm gap : ℝ) (hb : b ≠ 0) (hS : S ≠ 0) (hc : c ≠ 0)
    (har : x.ar = b ^ 2 / S) (har' : x.ar = b / c) (hbb : x.bbar = bt / b) (hsb : x.sbar = St / S) (hm : x.moment = c / arm)
    (hh : x.hbar = gap / b) : x.art = bt ^ 2 / St ∧ x.xt = arm / c ∧ x.h = gap / c := by
  refine ⟨?_, ?_, ?_⟩
  · rw [Lift.art, har, hbb, hsb]
    by_cases h : St = 0
    · simp [h]
    · field_simp
  · rw [Lift.xt, hm, one_div_div]
  · rw [Lift.h, hh, har']; field_simp

theorem sqrt_scale (a c : ℝ) (hc : 0 < c) : √(a / c ^ 2) = √a / c := by
  rw [Real.sqrt_div' _ (by positivity), Real.sqrt_sq hc.le]

/-- The downwash of the wing at the tail is that of a horseshoe vortex: the bound part at the distance of the tail, and the two
trailing parts seen from the arm. -/
theorem onTail_vortex (x : Lift) (b c arm gap : ℝ) (hb : 0 < b) (hc : 0 < c) (ha : 0 < arm) (har : x.ar = b / c)
    (hx : x.xt = arm / c) (hh : x.h = gap / c) :
    x.onTail = c / (4 * π * √(arm ^ 2 + gap ^ 2)) + c / (π * b) * (1 + arm / √(arm ^ 2 + gap ^ 2 + (b / 2) ^ 2)) := by
  have e1 : x.xt ^ 2 + x.h ^ 2 = (arm ^ 2 + gap ^ 2) / c ^ 2 := by rw [hx, hh]; field_simp
  have e2 : x.xt ^ 2 + x.h ^ 2 + x.ar ^ 2 / 4 = (arm ^ 2 + gap ^ 2 + (b / 2) ^ 2) / c ^ 2 := by rw [hx, hh, har]; field_simp; ring
  have p1 : 0 < √(arm ^ 2 + gap ^ 2) := Real.sqrt_pos.2 (by positivity)
  have p2 : 0 < √(arm ^ 2 + gap ^ 2 + (b / 2) ^ 2) := Real.sqrt_pos.2 (by positivity)
  rw [Lift.onTail, Lift.eps1, e2, e1, sqrt_scale _ _ hc, sqrt_scale _ _ hc, hx, har, abs_of_pos (by positivity)]
  generalize √(arm ^ 2 + gap ^ 2 + (b / 2) ^ 2) = R at *
  generalize √(arm ^ 2 + gap ^ 2) = r at *
  field_simp
  ring

/-- The upwash of a tail of constant chord at the wing, in the same way; the trailing parts lead away from the wing. -/
theorem onWing_vortex (x : Lift) (bt ct c arm gap : ℝ) (hb : 0 < bt) (hct : 0 < ct) (hc : 0 < c) (ha : 0 < arm)
    (hart : x.art = bt / ct) (hcb : x.cbar = ct / c) (hx : x.xt = arm / c) (hh : x.h = gap / c) :
    x.onWing = ct / (π * bt) * (1 - arm / √(arm ^ 2 + gap ^ 2 + (bt / 2) ^ 2)) - ct / (4 * π * √(arm ^ 2 + gap ^ 2)) := by
  have e1 : x.xt ^ 2 + x.h ^ 2 = (arm ^ 2 + gap ^ 2) / c ^ 2 := by rw [hx, hh]; field_simp
  have e2 : x.xt ^ 2 + x.h ^ 2 + x.art ^ 2 * x.cbar ^ 2 / 4 = (arm ^ 2 + gap ^ 2 + (bt / 2) ^ 2) / c ^ 2 := by
    rw [hx, hh, hart, hcb]; field_simp; ring
  have p1 : 0 < √(arm ^ 2 + gap ^ 2) := Real.sqrt_pos.2 (by positivity)
  have p2 : 0 < √(arm ^ 2 + gap ^ 2 + (bt / 2) ^ 2) := Real.sqrt_pos.2 (by positivity)
  rw [Lift.onWing, Lift.eps1, e2, e1, sqrt_scale _ _ hc, sqrt_scale _ _ hc, hx, hart, hcb, abs_of_pos (by positivity)]
  generalize √(arm ^ 2 + gap ^ 2 + (bt / 2) ^ 2) = R at *
  generalize √(arm ^ 2 + gap ^ 2) = r at *
  field_simp

/-- A tail on top of the fin has the full slope, one on the body nine tenths of it. -/
theorem clat0_ends (x : Lift) :
    (x.htLoc = 1 → x.clat0 = cla x.art (deg2rad x.htSweep) x.mach) ∧
      (x.htLoc = 0 → x.clat0 = 9 / 10 * cla x.art (deg2rad x.htSweep) x.mach) := by
  constructor <;> intro h <;> rw [Lift.clat0, h] <;> ring

/-- The factor of the leading edge without the inner fraction; it is one for wings that are pointed or of constant chord and less
between. -/
theorem fk_eq (g : Geom) (ha : 0 < g.ar) (h0 : 0 ≤ g.taper) (h1 : g.taper ≤ 1) :
    g.fk * (g.ar * (1 + g.taper) + 4 * g.taper ^ 2 * (1 - g.taper)) = g.ar * (1 + g.taper) ∧ 0 < g.fk ∧ g.fk ≤ 1 := by
  have hy : 0 ≤ g.yale := div_nonneg (by linarith) (by linarith)
  have hd : 0 ≤ g.yale / g.ar * 4 * g.taper ^ 2 := by positivity
  have hp : 0 < 1 + g.yale / g.ar * 4 * g.taper ^ 2 := by linarith
  refine ⟨?_, by unfold Geom.fk; positivity, ?_⟩
  · have e : g.ar * (1 + g.taper) + 4 * g.taper ^ 2 * (1 - g.taper) =
        g.ar * (1 + g.taper) * (1 + g.yale / g.ar * 4 * g.taper ^ 2) := by
      unfold Geom.yale; field_simp
    rw [e]
    unfold Geom.fk
    field_simp
  · unfold Geom.fk
    rw [div_le_one hp]; linarith

/-- The sweep at half of the chord used for the ground effect is that of the drag parameters, for wings swept back. -/
theorem rlmc2_half_chord (l : Ground) (g : Geom) (h1 : g.ar = l.ar) (h2 : g.sweep = l.sweep) (h3 : g.taper = l.taper)
    (hs : 0 ≤ tan (deg2rad l.sweep)) : rad2deg l.rlmc2 = g.sweepAt 0.5 := by
  have e : (4 : ℝ) * (0.5 - 0.25) = 1 := by norm_num
  rw [Ground.rlmc2, Geom.sweepAt, Geom.tanSweep, Geom.yale, h1, h2, h3, abs_of_nonneg hs, e, one_mul]

/-- Lift away from the ground: that of the flaps at the angle of zero lift, and linear from there. -/
theorem cloge_affine (l : Ground) (a : ℝ) :
    ({ l with alpha := l.alpha0 } : Ground).cloge = l.dclFlaps ∧
      ({ l with alpha := a } : Ground).cloge - l.cloge = l.slope * (π / 180 * (a - l.alpha)) := by
  constructor
  · simp [Ground.cloge, deg2rad]
  · simp only [Ground.cloge, deg2rad]; ring

/-- Induced drag grows with the square of the lift that is not due to the flaps. -/
theorem cdi_square (l : Low) (k : ℝ) :
    ({ l with cl := l.dclCoef * l.dclFlaps + k * (l.cl - l.dclCoef * l.dclFlaps) } : Low).cdi = k ^ 2 * l.cdi := by
  simp only [Low.cdi]; ring

/-- The angle of the leading edge is the sweep at the chord fraction zero. -/
theorem rlmle_leading_edge (g : Geom) : rad2deg g.rlmle = g.sweepAt 0 := by
  have e : (4 : ℝ) * (0 - 0.25) = -1 := by norm_num
  rw [Geom.rlmle, Geom.sweepAt, e]
  congr 3
  ring

/-- The denominator of the lift slope of a finite wing is the greater root of a quadratic equation. -/
theorem c3_root (l : Ground) : l.c3 ^ 2 - 4 * cos l.rlmc2 * l.c3 = l.ar ^ 2 ∧ 2 * cos l.rlmc2 ≤ l.c3 := by
  have h := Real.sq_sqrt (show 0 ≤ l.ar ^ 2 + (2 * cos l.rlmc2) ^ 2 by positivity)
  unfold Ground.c3
  constructor
  · linear_combination h
  · linarith [Real.sqrt_nonneg (l.ar ^ 2 + (2 * cos l.rlmc2) ^ 2)]

end Verif.GaspDrag
