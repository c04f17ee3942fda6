import Verif.Model.AtmTables
import Mathlib.Tactic.Linarith
import Mathlib.Tactic.Positivity
import Mathlib.Tactic.FieldSimp
import Mathlib.Tactic.Ring
import Mathlib.Tactic.NormNum

/-!
# Checkers for coefficient tables and their soundness

Each checker is an integer computation on the table data; its soundness theorem turns a successful
check into a statement about all real altitudes inside the table range.
-/

namespace Verif

/-- Coefficients of a row on a bin of width `H / 10 ^ eh`, in the unit interval variable, scaled by
`10 ^ (ea + eb + ec + ed + 3 eh)`. -/
structure Scaled where
  A : ℤ
  B : ℤ
  C : ℤ
  D : ℤ

def CTab.scaled (t : CTab) (eh : ℕ) (r : IRow) (H : ℤ) : Scaled :=
  ⟨r.a * 10 ^ (t.eb + t.ec + t.ed + 3 * eh),
   r.b * H * 10 ^ (t.ea + t.ec + t.ed + 2 * eh),
   r.c * H ^ 2 * 10 ^ (t.ea + t.eb + t.ed + eh),
   r.d * H ^ 3 * 10 ^ (t.ea + t.eb + t.ec)⟩

noncomputable def CTab.scale (t : CTab) (eh : ℕ) : ℝ := 10 ^ (t.ea + t.eb + t.ec + t.ed + 3 * eh)

theorem CTab.scale_pos (t : CTab) (eh : ℕ) : 0 < t.scale eh := by unfold CTab.scale; positivity

/-- Value on the bin in the unit variable `u`. -/
theorem CTab.val_scaled (t : CTab) (eh : ℕ) (r : IRow) (H : ℤ) (u : ℝ) :
    t.scale eh * (t.cubic r).val (u * dec H eh) =
      (t.scaled eh r H).A + (t.scaled eh r H).B * u + (t.scaled eh r H).C * u ^ 2
        + (t.scaled eh r H).D * u ^ 3 := by
  simp only [CTab.scale, Cubic.val, CTab.cubic, dec, CTab.scaled]
  push_cast
  field_simp
  ring

/-! ### Lookup as a recursion over the bins -/

/-- Evaluation of a table by walking through the bins: rows without the leading extrapolation row. -/
noncomputable def piece (t : CTab) (eh : ℕ) : List ℤ → List IRow → ℝ → ℝ
  | a0 :: a1 :: as, r :: rs, z =>
    if z ≤ dec a1 eh then (t.cubic r).val (z - dec a0 eh) else piece t eh (a1 :: as) rs z
  | _, _, _ => 0

/-- Strictly increasing. -/
def incr : List ℤ → Bool
  | a :: b :: l => decide (a < b) && incr (b :: l)
  | _ => true

theorem incr_head_lt {a : ℤ} : ∀ {l : List ℤ}, incr (a :: l) = true → ∀ b ∈ l, a < b
  | [], _, b, hb => by simp at hb
  | c :: l, h, b, hb => by
    simp only [incr, Bool.and_eq_true, decide_eq_true_eq] at h
    rcases List.mem_cons.1 hb with rfl | hb
    · exact h.1
    · exact lt_trans h.1 (incr_head_lt h.2 b hb)

theorem incr_tail {a : ℤ} {l : List ℤ} (h : incr (a :: l) = true) : incr l = true := by
  cases l with
  | nil => rfl
  | cons b l => simp only [incr, Bool.and_eq_true] at h; exact h.2

theorem dec_lt_dec {a b : ℤ} (e : ℕ) : dec a e < dec b e ↔ a < b := by
  unfold dec
  rw [div_lt_div_iff_of_pos_right (by positivity)]
  exact_mod_cast Iff.rfl

theorem dec_le_dec {a b : ℤ} (e : ℕ) : dec a e ≤ dec b e ↔ a ≤ b := by
  unfold dec
  rw [div_le_div_iff_of_pos_right (by positivity)]
  exact_mod_cast Iff.rfl

theorem dec_sub (a b : ℤ) (e : ℕ) : dec a e - dec b e = dec (a - b) e := by
  unfold dec; push_cast; ring

/-- The range of the table: lowest and highest altitude. -/
noncomputable def loAlt (eh : ℕ) (alts : List ℤ) : ℝ := dec (alts.headD 0) eh
noncomputable def hiAlt (eh : ℕ) (alts : List ℤ) : ℝ := dec (alts.getLastD 0) eh

theorem bin_cons_lt (a : ℝ) (l : List ℝ) (z : ℝ) (h : a < z) : bin (a :: l) z = bin l z + 1 := by
  simp [bin, h]

theorem bin_zero (l : List ℝ) (z : ℝ) (h : ∀ a ∈ l, z ≤ a) : bin l z = 0 := by
  unfold bin
  rw [List.length_eq_zero_iff, List.filter_eq_nil_iff]
  intro a ha
  simpa using h a ha

/-- Index-based lookup agrees with the recursion over the bins. -/
theorem lookup_eq_piece (t : CTab) (eh : ℕ) (z : ℝ) :
    ∀ (alts : List ℤ) (rs : List IRow) (x : ℝ) (r0 : IRow),
      incr alts = true → alts.length ≤ rs.length + 1 → dec (alts.headD 0) eh < z → z ≤ hiAlt eh alts →
      (t.cubic ((r0 :: rs).getD (bin (alts.map (dec · eh)) z) default)).val
        (z - (x :: alts.map (dec · eh)).getD (bin (alts.map (dec · eh)) z) 0) = piece t eh alts rs z
  | [], rs, x, r0, _, _, h1, h2 => by
    simp [hiAlt] at h1 h2; exact absurd h1 (not_lt.2 h2)
  | [a], rs, x, r0, _, _, h1, h2 => by
    simp [hiAlt] at h1 h2; exact absurd h1 (not_lt.2 h2)
  | a0 :: a1 :: as, [], x, r0, _, hl, _, _ => by simp at hl
  | a0 :: a1 :: as, r :: rs, x, r0, hs, hl, h1, h2 => by
    simp only [List.headD_cons] at h1
    rw [List.map_cons, bin_cons_lt _ _ _ h1]
    simp only [piece, List.getD_cons_succ]
    by_cases hz : z ≤ dec a1 eh
    · have hb : bin ((a1 :: as).map (dec · eh)) z = 0 := by
        apply bin_zero
        intro b hb
        obtain ⟨c, hc, rfl⟩ := List.mem_map.1 hb
        rcases List.mem_cons.1 hc with rfl | hc
        · exact hz
        · exact hz.trans ((dec_le_dec eh).2 (incr_head_lt (incr_tail hs) c hc).le)
      rw [hb]
      simp [hz]
    · rw [if_neg hz]
      have := lookup_eq_piece t eh z (a1 :: as) rs (dec a0 eh) r (incr_tail hs)
        (by simp at hl ⊢; omega) (by simpa using hz) (by simpa [hiAlt] using h2)
      simpa using this

/-! ### Lower bound check -/

/-- All Bernstein coefficients of `row - m / 10 ^ em` are positive on a bin of width `H`. -/
def rowAbove (t : CTab) (eh : ℕ) (m : ℤ) (r : IRow) (H : ℤ) : Bool :=
  let s := t.scaled eh r H
  let A := s.A - m * 10 ^ (t.ea + t.eb + t.ec + t.ed + 3 * eh)
  decide (0 < A) && decide (0 < 3 * A + s.B) && decide (0 < 3 * A + 2 * s.B + s.C)
    && decide (0 < A + s.B + s.C + s.D)

def tabAbove (t : CTab) (eh : ℕ) (m : ℤ) : List ℤ → List IRow → Bool
  | a0 :: a1 :: as, r :: rs => rowAbove t eh m r (a1 - a0) && tabAbove t eh m (a1 :: as) rs
  | _, _ => true

theorem unit_param {a0 a1 : ℤ} {eh : ℕ} {z : ℝ} (h01 : a0 < a1) (h0 : dec a0 eh ≤ z)
    (h1 : z ≤ dec a1 eh) : ∃ u : ℝ, 0 ≤ u ∧ u ≤ 1 ∧ z - dec a0 eh = u * dec (a1 - a0) eh := by
  have hw : 0 < dec (a1 - a0) eh := by
    rw [← dec_sub]; exact sub_pos.2 ((dec_lt_dec eh).2 h01)
  refine ⟨(z - dec a0 eh) / dec (a1 - a0) eh, div_nonneg (sub_nonneg.2 h0) hw.le, ?_, ?_⟩
  · rw [div_le_one hw, ← dec_sub]; linarith
  · field_simp

theorem bernstein3_pos {A B C D u : ℝ} (hu : 0 ≤ u) (hu1 : u ≤ 1) (h0 : 0 < A) (h1 : 0 < 3 * A + B)
    (h2 : 0 < 3 * A + 2 * B + C) (h3 : 0 < A + B + C + D) : 0 < A + B * u + C * u ^ 2 + D * u ^ 3 := by
  have hv : 0 ≤ 1 - u := by linarith
  have e : A + B * u + C * u ^ 2 + D * u ^ 3 =
      A * (1 - u) ^ 3 + (3 * A + B) * (u * (1 - u) ^ 2) + (3 * A + 2 * B + C) * (u ^ 2 * (1 - u))
        + (A + B + C + D) * u ^ 3 := by ring
  rw [e]
  rcases eq_or_lt_of_le hu with rfl | hu'
  · simpa using h0
  · have := mul_pos h3 (pow_pos hu' 3)
    have a1 := mul_nonneg h0.le (pow_nonneg hv 3)
    have a2 := mul_nonneg h1.le (mul_nonneg hu (pow_nonneg hv 2))
    have a3 := mul_nonneg h2.le (mul_nonneg (pow_nonneg hu 2) hv)
    linarith

theorem rowAbove_sound {t : CTab} {eh : ℕ} {m : ℤ} {r : IRow} {a0 a1 : ℤ} {z : ℝ} (h01 : a0 < a1)
    (hc : rowAbove t eh m r (a1 - a0) = true) (h0 : dec a0 eh ≤ z) (h1 : z ≤ dec a1 eh) :
    (m : ℝ) < (t.cubic r).val (z - dec a0 eh) := by
  obtain ⟨u, hu, hu1, hz⟩ := unit_param h01 h0 h1
  rw [hz]
  have hs := t.val_scaled eh r (a1 - a0) u
  have hp := t.scale_pos eh
  simp only [rowAbove, Bool.and_eq_true, decide_eq_true_eq] at hc
  obtain ⟨⟨⟨c0, c1⟩, c2⟩, c3⟩ := hc
  set s := t.scaled eh r (a1 - a0)
  set A : ℤ := s.A - m * 10 ^ (t.ea + t.eb + t.ec + t.ed + 3 * eh) with hA
  have key := bernstein3_pos (A := (A : ℝ)) (B := s.B) (C := s.C) (D := s.D) hu hu1
    (by exact_mod_cast c0) (by exact_mod_cast c1) (by exact_mod_cast c2) (by exact_mod_cast c3)
  have hA' : (A : ℝ) = s.A - m * t.scale eh := by rw [hA, CTab.scale]; push_cast; ring
  rw [hA'] at key
  have : 0 < t.scale eh * ((t.cubic r).val (u * dec (a1 - a0) eh) - m) := by
    rw [mul_sub, hs]; linarith
  have := pos_of_mul_pos_right this hp.le
  linarith

theorem tabAbove_sound (t : CTab) (eh : ℕ) (m : ℤ) (z : ℝ) :
    ∀ (alts : List ℤ) (rs : List IRow), incr alts = true → alts.length ≤ rs.length + 1 →
      tabAbove t eh m alts rs = true → dec (alts.headD 0) eh < z → z ≤ hiAlt eh alts →
      (m : ℝ) < piece t eh alts rs z
  | [], rs, _, _, _, h1, h2 => by simp [hiAlt] at h1 h2; exact absurd h1 (not_lt.2 h2)
  | [a], rs, _, _, _, h1, h2 => by simp [hiAlt] at h1 h2; exact absurd h1 (not_lt.2 h2)
  | a0 :: a1 :: as, [], _, hl, _, _, _ => by simp at hl
  | a0 :: a1 :: as, r :: rs, hs, hl, hc, h1, h2 => by
    simp only [List.headD_cons] at h1
    simp only [tabAbove, Bool.and_eq_true] at hc
    simp only [piece]
    by_cases hz : z ≤ dec a1 eh
    · rw [if_pos hz]
      exact rowAbove_sound (incr_head_lt hs a1 (by simp)) hc.1 h1.le hz
    · rw [if_neg hz]
      exact tabAbove_sound t eh m z (a1 :: as) rs (incr_tail hs) (by simp at hl ⊢; omega) hc.2
        (by simpa using hz) (by simpa [hiAlt] using h2)

/-! ### Decrease check -/

/-- The derivative is non-positive on the bin (Bernstein coefficients), the table values do not
increase and the end of the bin is at least `1 / (1 + 10⁻¹²)` of the next table value. -/
def rowFalls (t : CTab) (eh : ℕ) (r : IRow) (H : ℤ) (next : ℤ) : Bool :=
  let s := t.scaled eh r H
  let N := next * 10 ^ (t.eb + t.ec + t.ed + 3 * eh)
  decide (s.B ≤ 0) && decide (s.B + s.C ≤ 0) && decide (s.B + 2 * s.C + 3 * s.D ≤ 0)
    && decide (next ≤ r.a) && decide (N * 1000000000000 ≤ (s.A + s.B + s.C + s.D) * 1000000000001)

def tabFalls (t : CTab) (eh : ℕ) : List ℤ → List IRow → Bool
  | a0 :: a1 :: as, r :: r' :: rs => rowFalls t eh r (a1 - a0) r'.a && tabFalls t eh (a1 :: as) (r' :: rs)
  | _, _ => true

theorem bernstein2_nonpos {B C D u : ℝ} (hu : 0 ≤ u) (hu1 : u ≤ 1) (h0 : B ≤ 0) (h1 : B + C ≤ 0)
    (h2 : B + 2 * C + 3 * D ≤ 0) : B + 2 * C * u + 3 * D * u ^ 2 ≤ 0 := by
  have hv : 0 ≤ 1 - u := by linarith
  have e : B + 2 * C * u + 3 * D * u ^ 2 =
      B * (1 - u) ^ 2 + (B + C) * (2 * u * (1 - u)) + (B + 2 * C + 3 * D) * u ^ 2 := by ring
  rw [e]
  have a1 := mul_nonpos_of_nonpos_of_nonneg h0 (pow_nonneg hv 2)
  have a2 := mul_nonpos_of_nonpos_of_nonneg h1 (mul_nonneg (mul_nonneg zero_le_two hu) hv)
  have a3 := mul_nonpos_of_nonpos_of_nonneg h2 (pow_nonneg hu 2)
  linarith

/-- A cubic with non-positive derivative Bernstein coefficients falls on the unit interval. -/
theorem cubic_falls {A B C D u v : ℝ} (hu : 0 ≤ u) (huv : u ≤ v) (hv : v ≤ 1) (h0 : B ≤ 0)
    (h1 : B + C ≤ 0) (h2 : B + 2 * C + 3 * D ≤ 0) :
    A + B * v + C * v ^ 2 + D * v ^ 3 ≤ A + B * u + C * u ^ 2 + D * u ^ 3 := by
  -- difference = (v - u) * average of the derivative; use the polar form (blossom) of the derivative
  have e : (A + B * u + C * u ^ 2 + D * u ^ 3) - (A + B * v + C * v ^ 2 + D * v ^ 3) =
      -(v - u) * (B + C * (u + v) + D * (u ^ 2 + u * v + v ^ 2)) := by ring
  have e2 : B + C * (u + v) + D * (u ^ 2 + u * v + v ^ 2) =
      ((B + 2 * C * u + 3 * D * u ^ 2) + (B + 2 * C * v + 3 * D * v ^ 2)
        + 4 * (B + 2 * C * ((u + v) / 2) + 3 * D * ((u + v) / 2) ^ 2)) / 6 := by ring
  have k1 := bernstein2_nonpos hu (huv.trans hv) h0 h1 h2
  have k2 := bernstein2_nonpos (hu.trans huv) hv h0 h1 h2
  have k3 := bernstein2_nonpos (u := (u + v) / 2) (by linarith) (by linarith) h0 h1 h2
  have : B + C * (u + v) + D * (u ^ 2 + u * v + v ^ 2) ≤ 0 := by rw [e2]; linarith
  nlinarith [mul_nonneg (sub_nonneg.2 huv) (neg_nonneg.2 this)]

theorem rowFalls_sound {t : CTab} {eh : ℕ} {r : IRow} {a0 a1 n : ℤ} {y z : ℝ} (h01 : a0 < a1)
    (hc : rowFalls t eh r (a1 - a0) n = true) (h0 : dec a0 eh ≤ y) (hyz : y ≤ z) (h1 : z ≤ dec a1 eh) :
    (t.cubic r).val (z - dec a0 eh) ≤ (t.cubic r).val (y - dec a0 eh) := by
  obtain ⟨u, hu, hu1, hy⟩ := unit_param h01 h0 (hyz.trans h1)
  obtain ⟨v, hv, hv1, hz⟩ := unit_param h01 (h0.trans hyz) h1
  have hw : 0 < dec (a1 - a0) eh := by
    rw [← dec_sub]; exact sub_pos.2 ((dec_lt_dec eh).2 h01)
  have huv : u ≤ v := by
    have : u * dec (a1 - a0) eh ≤ v * dec (a1 - a0) eh := by rw [← hy, ← hz]; linarith
    exact le_of_mul_le_mul_right this hw
  rw [hy, hz]
  have su := t.val_scaled eh r (a1 - a0) u
  have sv := t.val_scaled eh r (a1 - a0) v
  simp only [rowFalls, Bool.and_eq_true, decide_eq_true_eq] at hc
  obtain ⟨⟨⟨⟨c0, c1⟩, c2⟩, _⟩, _⟩ := hc
  set s := t.scaled eh r (a1 - a0)
  have key := cubic_falls (A := (s.A : ℝ)) (B := s.B) (C := s.C) (D := s.D) hu huv hv1
    (by exact_mod_cast c0) (by exact_mod_cast c1) (by exact_mod_cast c2)
  rw [← su, ← sv] at key
  exact le_of_mul_le_mul_left key (t.scale_pos eh)

/-- Everything above the first altitude of a falling table is at most the first table value. -/
theorem tabFalls_le_head (t : CTab) (eh : ℕ) (z : ℝ) :
    ∀ (alts : List ℤ) (r : IRow) (rs : List IRow), incr alts = true → alts.length ≤ rs.length + 1 →
      tabFalls t eh alts (r :: rs) = true → dec (alts.headD 0) eh < z → z ≤ hiAlt eh alts →
      piece t eh alts (r :: rs) z ≤ dec r.a t.ea
  | [], r, rs, _, _, _, h1, h2 => by simp [hiAlt] at h1 h2; exact absurd h1 (not_lt.2 h2)
  | [a], r, rs, _, _, _, h1, h2 => by simp [hiAlt] at h1 h2; exact absurd h1 (not_lt.2 h2)
  | a0 :: a1 :: as, r, [], _, hl, _, _, _ => by simp at hl
  | a0 :: a1 :: as, r, r' :: rs, hs, hl, hc, h1, h2 => by
    simp only [List.headD_cons] at h1
    simp only [tabFalls, Bool.and_eq_true] at hc
    have h01 := incr_head_lt hs a1 (by simp)
    simp only [piece]
    by_cases hz : z ≤ dec a1 eh
    · rw [if_pos hz]
      have := rowFalls_sound h01 hc.1 le_rfl h1.le hz
      simpa [Cubic.val, CTab.cubic] using this
    · rw [if_neg hz]
      refine (tabFalls_le_head t eh z (a1 :: as) r' rs (incr_tail hs) (by simp at hl ⊢; omega) hc.2
        (by simpa using hz) (by simpa [hiAlt] using h2)).trans ?_
      have h := hc.1
      simp only [rowFalls, Bool.and_eq_true, decide_eq_true_eq] at h
      exact (dec_le_dec _).2 h.1.2

theorem tabFalls_sound (t : CTab) (eh : ℕ) (y z : ℝ) (hyz : y ≤ z) :
    ∀ (alts : List ℤ) (rs : List IRow), incr alts = true → alts.length ≤ rs.length →
      tabFalls t eh alts rs = true → dec (alts.headD 0) eh < y → z ≤ hiAlt eh alts →
      piece t eh alts rs z ≤ (1 + 1 / 10 ^ 12) * piece t eh alts rs y
        ∨ piece t eh alts rs z ≤ piece t eh alts rs y
  | [], rs, _, _, _, h1, h2 => by
    simp [hiAlt] at h1 h2; exact absurd (h1.trans_le hyz) (not_lt.2 h2)
  | [a], rs, _, _, _, h1, h2 => by
    simp [hiAlt] at h1 h2; exact absurd (h1.trans_le hyz) (not_lt.2 h2)
  | a0 :: a1 :: as, [], _, hl, _, _, _ => by simp at hl
  | a0 :: a1 :: as, [r], _, hl, _, _, _ => by simp at hl
  | a0 :: a1 :: as, r :: r' :: rs, hs, hl, hc, h1, h2 => by
    simp only [List.headD_cons] at h1
    simp only [tabFalls, Bool.and_eq_true] at hc
    have h01 := incr_head_lt hs a1 (by simp)
    rw [piece, piece]
    by_cases hy : y ≤ dec a1 eh
    · rw [if_pos hy]
      by_cases hz : z ≤ dec a1 eh
      · rw [if_pos hz]
        exact Or.inr (rowFalls_sound h01 hc.1 h1.le hyz hz)
      · rw [if_neg hz]
        left
        have k1 := tabFalls_le_head t eh z (a1 :: as) r' rs (incr_tail hs) (by simp at hl ⊢; omega) hc.2
          (by simpa using hz) (by simpa [hiAlt] using h2)
        have k2 := rowFalls_sound h01 hc.1 h1.le hy le_rfl
        have hr := hc.1
        simp only [rowFalls, Bool.and_eq_true, decide_eq_true_eq] at hr
        have k3 := hr.2
        have e1 := t.val_scaled eh r (a1 - a0) 1
        rw [one_mul, ← dec_sub] at e1
        have hp := t.scale_pos eh
        set s := t.scaled eh r (a1 - a0)
        have k3' : ((r'.a * 10 ^ (t.eb + t.ec + t.ed + 3 * eh) : ℤ) : ℝ) * 1000000000000 ≤
            ((s.A + s.B + s.C + s.D : ℤ) : ℝ) * 1000000000001 := by exact_mod_cast k3
        have e2 : ((r'.a * 10 ^ (t.eb + t.ec + t.ed + 3 * eh) : ℤ) : ℝ) = t.scale eh * dec r'.a t.ea := by
          simp only [CTab.scale, dec]; push_cast; field_simp; ring
        have e3 : ((s.A + s.B + s.C + s.D : ℤ) : ℝ) =
            t.scale eh * (t.cubic r).val (dec a1 eh - dec a0 eh) := by rw [e1]; push_cast; ring
        rw [e2, e3] at k3'
        have k4 : dec r'.a t.ea * 1000000000000 ≤
            (t.cubic r).val (dec a1 eh - dec a0 eh) * 1000000000001 :=
          le_of_mul_le_mul_left (by linarith) hp
        have k5 : dec r'.a t.ea ≤ (1 + 1 / 10 ^ 12) * (t.cubic r).val (dec a1 eh - dec a0 eh) := by
          norm_num; linarith
        refine k1.trans (k5.trans ?_)
        exact mul_le_mul_of_nonneg_left k2 (by norm_num)
    · have hz : ¬ z ≤ dec a1 eh := fun h => hy (hyz.trans h)
      rw [if_neg hy, if_neg hz]
      exact tabFalls_sound t eh y z hyz (a1 :: as) (r' :: rs) (incr_tail hs) (by simp at hl ⊢; omega) hc.2
        (by simpa using hy) (by simpa [hiAlt] using h2)

end Verif
