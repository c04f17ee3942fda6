import Verif.Model.CabinLayout
import Mathlib.Tactic.NormNum
import Mathlib.Tactic.Linarith
import Mathlib.Tactic.Ring
import Mathlib.Tactic.Positivity
import Mathlib.Tactic.FieldSimp

/-! # Properties of the detailed cabin layout of a transport -/

namespace Verif.CabinLayout

/-- Seats abreast of every class, from the options alone: a positive number is kept. -/
theorem abreast_economy (o : Opts) : o.abreast.e =
    if 0 < o.aE then o.aE else if 200 < o.nE then 8 else if 0 < o.nE then 6 else 5 := by
  simp only [Opts.abreast, Opts.common, Opts.wide]
  split_ifs <;> simp_all <;> omega

theorem abreast_first (o : Opts) : o.abreast.f =
    if 0 < o.aF ∨ o.nF ≤ 0 then o.aF else if 200 < o.nE ∧ 2 < o.abreast.e then o.abreast.e - 2 else 4 := by
  rw [abreast_economy]
  simp only [Opts.abreast, Opts.common, Opts.wide]
  by_cases h : 200 < o.nE
  · simp only [if_pos h]; split_ifs <;> omega
  · simp only [if_neg h]; split_ifs <;> omega

theorem abreast_business (o : Opts) : o.abreast.b =
    if 0 < o.aB ∨ o.nB ≤ 0 then o.aB else if 200 < o.nE ∧ 2 < o.abreast.e then o.abreast.e - 2 else 5 := by
  rw [abreast_economy]
  simp only [Opts.abreast, Opts.common, Opts.wide]
  by_cases h : 200 < o.nE
  · simp only [if_pos h]; split_ifs <;> omega
  · simp only [if_neg h]; split_ifs <;> omega

/-- Every class with passengers has seats, and economy always has. -/
theorem abreast_pos (o : Opts) : 0 < o.abreast.e ∧ (0 < o.nF → 0 < o.abreast.f) ∧ (0 < o.nB → 0 < o.abreast.b) := by
  refine ⟨?_, ?_, ?_⟩
  · rw [abreast_economy]; split_ifs <;> omega
  · intro h; rw [abreast_first]; split_ifs <;> omega
  · intro h; rw [abreast_business]; split_ifs <;> omega

/-- The comment asks for 5 seats abreast when less than 60 passengers fly and none were given. Six are set. -/
theorem small_cabin_default_violated (o : Opts) (h : o.aE ≤ 0) (h1 : 0 < o.nE) (h2 : o.nE < 60) :
    o.abreast.e = 6 ∧ o.abreast.e ≠ 5 := by
  rw [abreast_economy, if_neg (by omega), if_neg (by omega), if_pos h1]; decide

/-- The narrow aisle of a widebody's business class is given to first class. -/
theorem widebody_aisle_violated (o : Opts) (h : 5 < o.abreast.b) : o.aisleF = 17 ∧ o.aisleB = 19 := by
  simp [Opts.aisleF, Opts.aisleB, h]

theorem aisle_spec (o : Opts) (h : ¬ 5 < o.abreast.b) :
    o.aisleF = (if 4 < o.abreast.f then 18 else 20) ∧ o.aisleB = 19 := by
  simp [Opts.aisleF, Opts.aisleB, h]

theorem aisle_economy (o : Opts) : o.aisleE = 15 ↔ o.nE < 60 ∨ o.aisles = 2 := by
  simp only [Opts.aisleE, Opts.aisles]
  split_ifs <;> simp <;> omega

theorem aisles_spec (o : Opts) : (o.aisles = 2 ↔ 6 < o.abreast.e) ∧ (o.aisles = 1 ↔ o.abreast.e ≤ 6) := by
  simp only [Opts.aisles]; split_ifs <;> constructor <;> constructor <;> intro h <;> omega

/-- The table by the number of passengers never decreases. -/
theorem capsTable_mono {m n : ℤ} (h : m ≤ n) : (capsTable m).galleys ≤ (capsTable n).galleys ∧
    (capsTable m).lavs ≤ (capsTable n).lavs ∧ (capsTable m).closets ≤ (capsTable n).closets := by
  have key : ∀ {t : ℤ} {a : Caps} {f : ℤ → Caps},
      (∀ m n, m ≤ n → (f m).galleys ≤ (f n).galleys ∧ (f m).lavs ≤ (f n).lavs ∧ (f m).closets ≤ (f n).closets) ∧
        (∀ n, a.galleys ≤ (f n).galleys ∧ a.lavs ≤ (f n).lavs ∧ a.closets ≤ (f n).closets) →
      ∀ m n, m ≤ n → (if m < t then a else f m).galleys ≤ (if n < t then a else f n).galleys ∧
        (if m < t then a else f m).lavs ≤ (if n < t then a else f n).lavs ∧
        (if m < t then a else f m).closets ≤ (if n < t then a else f n).closets := by
    rintro t a f ⟨hf, ha⟩ m n h
    by_cases h1 : m < t
    · by_cases h2 : n < t
      · simp [h1, h2]
      · simpa [h1, h2] using ha n
    · have h2 : ¬ n < t := by omega
      simpa [h1, h2] using hf m n h
  suffices H : ∀ m n : ℤ, m ≤ n → (capsTable m).galleys ≤ (capsTable n).galleys ∧
      (capsTable m).lavs ≤ (capsTable n).lavs ∧ (capsTable m).closets ≤ (capsTable n).closets from H m n h
  clear h
  unfold capsTable
  refine key ⟨key ⟨key ⟨key ⟨key ⟨key ⟨key ⟨key ⟨key ⟨key ⟨fun _ _ _ => ⟨le_rfl, le_rfl, le_rfl⟩, ?_⟩, ?_⟩, ?_⟩, ?_⟩, ?_⟩, ?_⟩, ?_⟩, ?_⟩,
    ?_⟩, ?_⟩
  all_goals (intro n; dsimp only; first | decide | (split_ifs <;> decide))

/-- Above 320 economy passengers the limits are 4, also above 600 where 8 is intended. -/
theorem over_six_hundred_violated (o : Opts) (h : 600 < o.nE) : o.caps = ⟨4, 4, 4⟩ ∧ o.caps ≠ ⟨8, 8, 8⟩ := by
  have e : o.caps = ⟨4, 4, 4⟩ := by simp only [Opts.caps]; rw [if_pos (by omega)]
  rw [e]; exact ⟨rfl, by decide⟩

/-- Limits in each of the four cases. -/
theorem caps_spec (o : Opts) :
    (320 < o.nE → o.caps = ⟨4, 4, 4⟩) ∧
    (o.nE ≤ 320 → o.fb ≠ 0 → o.caps = capsTable o.pax) ∧
    (o.fb = 0 → o.nE < 110 → o.caps = ⟨1, 1, 1⟩) ∧
    (o.fb = 0 → 110 ≤ o.nE → o.nE ≤ 320 → o.caps = ⟨2, if o.range < 1250 then 2 else 3, 2⟩) := by
  refine ⟨fun h => ?_, fun h h1 => ?_, fun h h1 => ?_, fun h h1 h2 => ?_⟩
  · simp only [Opts.caps]; rw [if_pos h]
  · have a : ¬ 320 < o.nE := by omega
    have b : ¬ 600 < o.nE := by omega
    simp [Opts.caps, a, b, h1]
  · have a : ¬ 320 < o.nE := by omega
    have b : ¬ 600 < o.nE := by omega
    simp [Opts.caps, a, b, h, h1]
  · have a : ¬ 320 < o.nE := by omega
    have b : ¬ 600 < o.nE := by omega
    have c : ¬ o.nE < 110 := by omega
    simp [Opts.caps, a, b, c, h]

theorem capsTable_pos (n : ℤ) : 1 ≤ (capsTable n).galleys ∧ 1 ≤ (capsTable n).lavs ∧ 1 ≤ (capsTable n).closets := by
  simp only [capsTable]
  split_ifs <;> (refine ⟨?_, ?_, ?_⟩ <;> norm_num)

theorem caps_pos (o : Opts) : 1 ≤ o.caps.galleys ∧ 1 ≤ o.caps.lavs ∧ 1 ≤ o.caps.closets := by
  obtain ⟨h1, h2, h3, h4⟩ := caps_spec o
  by_cases a : 320 < o.nE
  · rw [h1 a]; decide
  · by_cases b : o.fb = 0
    · by_cases c : o.nE < 110
      · rw [h3 b c]; decide
      · rw [h4 b (by omega) (by omega)]; split_ifs <;> decide
    · rw [h2 (by omega) b]; exact capsTable_pos _

theorem trunc_nat {n : ℤ} {d : ℕ} (hn : 0 ≤ n) (hd : 0 < d) : trunc (1 + n / d) = 1 + n / (d : ℤ) := by
  have h : (0 : ℚ) ≤ 1 + (n : ℚ) / d := by positivity
  rw [trunc, if_pos h, add_comm, Int.floor_add_one, add_comm]
  congr 1
  exact Rat.floor_intCast_div_natCast n d

/-- Numbers of service units: one per 100, 60 or 30 passengers and one more, no more than the limit. -/
theorem counts_spec (o : Opts) (h : 0 ≤ o.nE) (h1 : 0 ≤ o.fb) :
    o.galleys = min o.caps.galleys (1 + o.pax / 100) ∧
    o.lavs = min o.caps.lavs ((1 + o.nE / 60) + (1 + o.fb / 100)) ∧
    o.closets = min o.caps.closets ((1 + o.fb / 30) + (1 + o.nE / 60)) := by
  have hp : 0 ≤ o.pax := by simp only [Opts.pax, Opts.fb] at *; omega
  have e1 : trunc (1 + (o.pax : ℚ) / 100) = 1 + o.pax / 100 := trunc_nat (d := 100) hp (by norm_num)
  have e2 : trunc (1 + (o.nE : ℚ) / 60) = 1 + o.nE / 60 := trunc_nat (d := 60) h (by norm_num)
  have e3 : trunc (1 + (o.fb : ℚ) / 100) = 1 + o.fb / 100 := trunc_nat (d := 100) h1 (by norm_num)
  have e4 : trunc (1 + (o.fb : ℚ) / 30) = 1 + o.fb / 30 := trunc_nat (d := 30) h1 (by norm_num)
  simp only [Opts.galleys, Opts.lavs, Opts.closets, e1, e2, e3, e4]
  refine ⟨?_, ?_, ?_⟩ <;> split_ifs <;> omega

theorem counts_bounds (o : Opts) (h : 0 ≤ o.nE) (h1 : 0 ≤ o.fb) :
    1 ≤ o.galleys ∧ 1 ≤ o.lavs ∧ 1 ≤ o.closets ∧
    o.galleys ≤ o.caps.galleys ∧ o.lavs ≤ o.caps.lavs ∧ o.closets ≤ o.caps.closets := by
  obtain ⟨e1, e2, e3⟩ := counts_spec o h h1
  obtain ⟨c1, c2, c3⟩ := caps_pos o
  have hp : 0 ≤ o.pax := by simp only [Opts.pax, Opts.fb] at *; omega
  have a1 : 0 ≤ o.pax / 100 := Int.ediv_nonneg hp (by norm_num)
  have a2 : 0 ≤ o.nE / 60 := Int.ediv_nonneg h (by norm_num)
  have a3 : 0 ≤ o.fb / 100 := Int.ediv_nonneg h1 (by norm_num)
  have a4 : 0 ≤ o.fb / 30 := Int.ediv_nonneg h1 (by norm_num)
  omega

/-- The layout raises exactly when no engine type is given or a class without seats abreast, hence without passengers,
is divided by. -/
theorem compute_ok_iff (o : Opts) :
    (∃ r, o.compute = .ok r) ↔ o.engines ≠ [] ∧ o.abreast.f ≠ 0 ∧ o.abreast.b ≠ 0 := by
  have he := (abreast_pos o).1.ne'
  rcases hE : o.engines with _ | ⟨n, r⟩
  · simp [Opts.compute, hE]
  · simp only [Opts.compute, hE, classLen, if_neg he]
    by_cases h1 : o.abreast.f = 0 <;> by_cases h2 : o.abreast.b = 0 <;> simp [h1, h2, Bind.bind, Except.bind]

theorem no_first_class_violated (o : Opts) (h : o.engines ≠ []) (h1 : o.nF ≤ 0) (h2 : o.aF = 0) :
    o.compute = .error .zeroDivision := by
  have e : o.abreast.f = 0 := by rw [abreast_first, if_pos (Or.inr h1), h2]
  rcases hE : o.engines with _ | ⟨n, r⟩
  · exact absurd hE h
  · simp [Opts.compute, hE, classLen, e, Bind.bind, Except.bind]

/-- With positive numbers of seats given for every class, or passengers in it, the layout is computed. -/
theorem compute_ok (o : Opts) (h : o.engines ≠ []) (h1 : 0 < o.aF ∨ 0 < o.nF) (h2 : 0 < o.aB ∨ 0 < o.nB) :
    ∃ r, o.compute = .ok r := by
  rw [compute_ok_iff]
  obtain ⟨-, p2, p3⟩ := abreast_pos o
  refine ⟨h, ?_, ?_⟩
  · rcases h1 with h1 | h1
    · rw [abreast_first, if_pos (Or.inl h1)]; omega
    · exact (p2 h1).ne'
  · rcases h2 with h2 | h2
    · rw [abreast_business, if_pos (Or.inl h2)]; omega
    · exact (p3 h2).ne'

/-- Outputs of a layout that is computed. -/
theorem compute_out {o : Opts} {r : Out} (h : o.compute = .ok r) : ∃ n l, o.engines = n :: l ∧
    r.cabin = o.final (o.bare (o.nF * pitch o.pF o.nF 38 / o.abreast.f) (o.nB * pitch o.pB o.nB 36 / o.abreast.b)
      (o.nE * pitch o.pE o.nE 34 / o.abreast.e)) ∧
    r.length = r.cabin + 25 * engFlag n + 40 ∧ r.width = o.fusWidth ∧ r.height = r.width + 0.9 := by
  obtain ⟨h1, h2, h3⟩ := (compute_ok_iff o).1 ⟨r, h⟩
  have he := (abreast_pos o).1.ne'
  rcases hE : o.engines with _ | ⟨n, l⟩
  · exact absurd hE h1
  · refine ⟨n, l, rfl, ?_⟩
    simp only [Opts.compute, hE, classLen, if_neg h2, if_neg h3, if_neg he, Bind.bind, Except.bind] at h
    cases h
    exact ⟨rfl, rfl, rfl, rfl⟩

/-- The flag of a centre engine is the parity of the number of engines. -/
theorem engFlag_spec {n : ℤ} (h : 0 ≤ n) : engFlag n = n % 2 := by
  have h1 : (0 : ℚ) ≤ (n : ℚ) / 2 := by positivity
  have e : ⌊(n : ℚ) / 2⌋ = n / 2 := by
    have := Rat.floor_intCast_div_natCast n 2
    exact_mod_cast this
  rw [engFlag, trunc, if_pos h1, e]
  omega

/-- The fuselage is 40 ft longer than the cabin, 65 ft with an odd number of engines of the first type. -/
theorem length_spec {o : Opts} {r : Out} (h : o.compute = .ok r) {n : ℤ} {l : List ℤ} (hE : o.engines = n :: l)
    (hn : 0 ≤ n) : r.length = r.cabin + (if n % 2 = 1 then 65 else 40) := by
  obtain ⟨m, l', h1, -, h2, -⟩ := compute_out h
  rw [hE] at h1
  cases h1
  rw [h2, engFlag_spec hn]
  rcases Int.emod_two_eq_zero_or_one n with e | e <;> (rw [e]; norm_num; try ring)

/-- The engines of other types are not counted. -/
theorem centre_engine_violated {o p : Opts} {r s : Out} (h : o.compute = .ok r) (h1 : p.compute = .ok s)
    (e : p = { o with engines := p.engines }) (hE : o.engines = [2]) (hP : p.engines = [2, 1]) :
    s.length = r.length := by
  have a := length_spec h hE (by norm_num)
  have b := length_spec h1 hP (by norm_num)
  obtain ⟨_, _, _, c, -⟩ := compute_out h
  obtain ⟨_, _, _, d, -⟩ := compute_out h1
  rw [a, b, c, d]
  rw [e]
  rfl

/-- Lengths. The doors and service areas are added to the seats. -/
theorem trunc_mono {x y : ℚ} (h : x ≤ y) : trunc x ≤ trunc y := by
  simp only [trunc]
  split_ifs with h1 h2 h2
  · exact Int.floor_mono h
  · linarith
  · exact (Int.ceil_nonpos.2 (by linarith)).trans (Int.floor_nonneg.2 h2)
  · exact Int.ceil_mono h

theorem mult_pos (o : Opts) : 0 < o.mult ∧ o.mult ≤ 1 := by
  simp only [Opts.mult]; split_ifs <;> norm_num

theorem mult_spec (o : Opts) : o.mult =
    if 0 < o.fb ∧ o.abreast.e < 8 then 0.95 else if o.fb = 0 ∧ o.nE < 180 then 0.91 else 1 := rfl

theorem final_mono (o : Opts) {x y : ℚ} (h : x ≤ y) : o.final x ≤ o.final y := by
  have he : (0 : ℚ) ≤ o.abreast.e := by exact_mod_cast (abreast_pos o).1.le
  have hd : doors x o.abreast.e ≤ doors y o.abreast.e := by
    simp only [doors]
    have := trunc_mono (x := x / 50 * o.abreast.e / 6) (y := y / 50 * o.abreast.e / 6) (by gcongr)
    omega
  have hd' : (doors x o.abreast.e : ℚ) ≤ doors y o.abreast.e := by exact_mod_cast hd
  have := (mult_pos o).1.le
  simp only [Opts.final]
  gcongr

/-- The cabin holds at least its seats, one galley, one lavatory, one closet and one door, times the multiplier. -/
theorem cabin_lower {o : Opts} {r : Out} (h : o.compute = .ok r) (hE : 0 ≤ o.nE) (hF : 0 ≤ o.nF) (hB : 0 ≤ o.nB)
    (pF : 0 ≤ o.pF) (pB : 0 ≤ o.pB) (pE : 0 ≤ o.pE) (aF : 0 ≤ o.aF) (aB : 0 ≤ o.aB) :
    o.mult * ((o.nF * pitch o.pF o.nF 38 / o.abreast.f + o.nB * pitch o.pB o.nB 36 / o.abreast.b +
      o.nE * pitch o.pE o.nE 34 / o.abreast.e) / 12 + 9.96) ≤ r.cabin := by
  obtain ⟨_, _, _, e, -⟩ := compute_out h
  obtain ⟨h1, h2, h3⟩ := (compute_ok_iff o).1 ⟨r, h⟩
  obtain ⟨c1, c2, c3, -⟩ := counts_bounds o hE (by simp only [Opts.fb]; omega)
  have q1 : (1 : ℚ) ≤ o.galleys := by exact_mod_cast c1
  have q2 : (1 : ℚ) ≤ o.lavs := by exact_mod_cast c2
  have q3 : (1 : ℚ) ≤ o.closets := by exact_mod_cast c3
  have pp : ∀ (p : ℚ) (n : ℤ) (d : ℚ), 0 ≤ p → 0 ≤ d → 0 ≤ pitch p n d := by
    intro p n d hp hd; simp only [pitch]; split_ifs <;> assumption
  have hf : 0 ≤ o.abreast.f := by
    rw [abreast_first]; split_ifs <;> omega
  have hb : 0 ≤ o.abreast.b := by
    rw [abreast_business]; split_ifs <;> omega
  have l1 : (0 : ℚ) ≤ o.nF * pitch o.pF o.nF 38 / o.abreast.f := by
    have := pp o.pF o.nF 38 pF (by norm_num); positivity
  have l2 : (0 : ℚ) ≤ o.nB * pitch o.pB o.nB 36 / o.abreast.b := by
    have := pp o.pB o.nB 36 pB (by norm_num); positivity
  have he := (abreast_pos o).1.le
  have l3 : (0 : ℚ) ≤ o.nE * pitch o.pE o.nE 34 / o.abreast.e := by
    have := pp o.pE o.nE 34 pE (by norm_num); positivity
  rw [e]
  generalize (o.nF * pitch o.pF o.nF 38 / o.abreast.f : ℚ) = x at *
  generalize (o.nB * pitch o.pB o.nB 36 / o.abreast.b : ℚ) = y at *
  generalize (o.nE * pitch o.pE o.nE 34 / o.abreast.e : ℚ) = z at *
  have hb : (x + y + z) / 12 + 7 ≤ o.bare x y z := by simp only [Opts.bare]; linarith
  have hd : (1 : ℚ) ≤ doors (o.bare x y z) o.abreast.e := by
    have h0 : (0 : ℚ) ≤ o.bare x y z / 50 * o.abreast.e / 6 := by
      have : 0 ≤ o.bare x y z := by linarith
      positivity
    have : 0 ≤ trunc (o.bare x y z / 50 * o.abreast.e / 6) := by
      rw [trunc, if_pos h0]; exact Int.floor_nonneg.2 h0
    have : 1 ≤ doors (o.bare x y z) o.abreast.e := by simp only [doors]; omega
    exact_mod_cast this
  have hm := (mult_pos o).1.le
  simp only [Opts.final]
  rw [mul_comm]
  refine mul_le_mul_of_nonneg_right ?_ hm
  linarith

/-- A larger seat pitch never shortens the cabin. -/
theorem cabin_mono_pitch {o : Opts} {p : ℚ} (h0 : 0 < o.pE) (h1 : o.pE ≤ p) (hE : 0 ≤ o.nE) {r s : Out}
    (h : o.compute = .ok r) (h2 : ({ o with pE := p } : Opts).compute = .ok s) : r.cabin ≤ s.cabin := by
  obtain ⟨_, _, _, e, -⟩ := compute_out h
  obtain ⟨_, _, _, e2, -⟩ := compute_out h2
  rw [e, e2]
  refine final_mono o ?_
  change Opts.bare o _ _ _ ≤ Opts.bare o (o.nF * pitch o.pF o.nF 38 / o.abreast.f) (o.nB * pitch o.pB o.nB 36 / o.abreast.b)
    (o.nE * pitch p o.nE 34 / o.abreast.e)
  have he := (abreast_pos o).1.le
  have : (o.nE * pitch o.pE o.nE 34 / o.abreast.e : ℚ) ≤ o.nE * pitch p o.nE 34 / o.abreast.e := by
    simp only [pitch, if_neg (show ¬ (o.pE ≤ 0 ∧ 0 < o.nE) from fun h => by linarith [h.1]),
      if_neg (show ¬ (p ≤ 0 ∧ 0 < o.nE) from fun h => by linarith [h.1])]
    have : (0 : ℚ) ≤ o.nE := by exact_mod_cast hE
    have : (0 : ℚ) ≤ o.abreast.e := by exact_mod_cast he
    gcongr
  simp only [Opts.bare]
  linarith

/-- The fuselage is wide enough for each class that has passengers, with 6 percent more. -/
theorem width_spec (o : Opts) :
    1.06 * o.width o.aisleE o.abreast.e o.wE ≤ o.fusWidth ∧
    (0 < o.nF → 1.06 * o.width o.aisleF o.abreast.f o.wF ≤ o.fusWidth) ∧
    (0 < o.nB → 1.06 * o.width o.aisleB o.abreast.b o.wB ≤ o.fusWidth) ∧
    (0 ≤ o.wE → 1.06 * 1.25 ≤ o.fusWidth) := by
  have key : 1.06 * o.width o.aisleE o.abreast.e o.wE ≤ o.fusWidth := by
    simp only [Opts.fusWidth]; rw [mul_comm]; gcongr
    exact (le_max_right _ _).trans (le_max_left _ _)
  refine ⟨key, fun h => ?_, fun h => ?_, fun h => ?_⟩
  · simp only [Opts.fusWidth, if_pos h]; rw [mul_comm]; gcongr
    exact (le_max_left _ _).trans (le_max_left _ _)
  · simp only [Opts.fusWidth, if_pos h]; rw [mul_comm]; gcongr
    exact le_max_right _ _
  · refine le_trans ?_ key
    have h1 : (1 : ℚ) ≤ o.aisles := by
      have : 1 ≤ o.aisles := by simp only [Opts.aisles]; split_ifs <;> norm_num
      exact_mod_cast this
    have h2 : (15 : ℚ) ≤ o.aisleE := by simp only [Opts.aisleE]; split_ifs <;> norm_num
    have h3 : (0 : ℚ) ≤ o.abreast.e := by exact_mod_cast (abreast_pos o).1.le
    have h4 : (15 : ℚ) ≤ o.aisles * o.aisleE := by nlinarith
    have h5 := mul_nonneg h3 h
    simp only [Opts.width]
    linarith

/-- And no wider than the widest class asks for. -/
theorem width_tight (o : Opts) (h : 0 ≤ o.wE) : o.fusWidth = 1.06 * o.width o.aisleE o.abreast.e o.wE ∨
    (0 < o.nF ∧ o.fusWidth = 1.06 * o.width o.aisleF o.abreast.f o.wF) ∨
    (0 < o.nB ∧ o.fusWidth = 1.06 * o.width o.aisleB o.abreast.b o.wB) := by
  have hp := (width_spec o).2.2.2 h
  simp only [Opts.fusWidth] at hp ⊢
  rcases max_choice (max (if 0 < o.nF then o.width o.aisleF o.abreast.f o.wF else 0) (o.width o.aisleE o.abreast.e o.wE))
    (if 0 < o.nB then o.width o.aisleB o.abreast.b o.wB else 0) with e | e
  · rw [e] at hp ⊢
    rcases max_choice (if 0 < o.nF then o.width o.aisleF o.abreast.f o.wF else 0) (o.width o.aisleE o.abreast.e o.wE) with e | e
    · rw [e] at hp ⊢
      by_cases hn : 0 < o.nF
      · rw [if_pos hn]; exact Or.inr (Or.inl ⟨hn, mul_comm _ _⟩)
      · rw [if_neg hn] at hp; norm_num at hp
    · rw [e]; exact Or.inl (mul_comm _ _)
  · rw [e] at hp ⊢
    by_cases hn : 0 < o.nB
    · rw [if_pos hn]; exact Or.inr (Or.inr ⟨hn, mul_comm _ _⟩)
    · rw [if_neg hn] at hp; norm_num at hp

/-- 30 business and `n` economy passengers. -/
def mixed (n : ℤ) : Opts := ⟨0, 30, n, 4, 5, 8, 38, 36, 34, [2], 3000, 21, 21, 20⟩

/-- One more passenger can shorten the cabin: the limits fall from 6, 12, 6 to 4, 4, 4 at the 321st. -/
theorem more_passengers_violated : ∃ r s, (mixed 320).compute = .ok r ∧ (mixed 321).compute = .ok s ∧ s.cabin < r.cabin := by
  obtain ⟨r, hr⟩ := compute_ok (mixed 320) (by simp [mixed]) (by simp [mixed]) (by simp [mixed])
  obtain ⟨s, hs⟩ := compute_ok (mixed 321) (by simp [mixed]) (by simp [mixed]) (by simp [mixed])
  refine ⟨r, s, hr, hs, ?_⟩
  obtain ⟨_, _, _, e, -⟩ := compute_out hr
  obtain ⟨_, _, _, e2, -⟩ := compute_out hs
  rw [e, e2]
  decide +kernel

/-- 300 economy and 30 business passengers meet the hypotheses. -/
example : ∃ r, (mixed 300).compute = .ok r ∧ 100 < r.cabin ∧ (mixed 300).abreast.b = 5 ∧ (mixed 300).aisles = 2 := by
  obtain ⟨r, hr⟩ := compute_ok (mixed 300) (by simp [mixed]) (by simp [mixed]) (by simp [mixed])
  refine ⟨r, hr, ?_, by decide, by decide⟩
  have := cabin_lower hr (by decide) (by decide) (by decide) (by decide +kernel) (by decide +kernel) (by decide +kernel)
    (by decide) (by decide)
  refine lt_of_lt_of_le ?_ this
  decide +kernel

end Verif.CabinLayout
