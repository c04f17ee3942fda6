import Verif.Model.CabinRows
import Verif.Props.CabinLayout
import Mathlib.Algebra.BigOperators.Group.Finset.Basic
import Mathlib.Algebra.Order.BigOperators.Group.Finset
import Mathlib.Algebra.Order.Archimedean.Basic
import Mathlib.Tactic.GCongr

/-! # Properties of the rows of seats of a blended wing body -/

namespace Verif.CabinRows
open Verif.CabinLayout (trunc trunc_mono)

/-- Row `k` counted from the pointer a class starts at. -/
def rowAt (s : Shape) (c : Cls) (p : ℚ) (k : ℕ) : Row := mkRow s c (p + k * (c.pitch / 12))

/-- Seats in the first `n` rows. -/
def seats (s : Shape) (c : Cls) (p : ℚ) (n : ℕ) : ℤ := ∑ k ∈ Finset.range n, (rowAt s c p k).num

/-- The state of the loop after `n` rounds. -/
def after (s : Shape) (c : Cls) (p : ℚ) (n : ℕ) : St :=
  ⟨(List.range n).map (rowAt s c p), p + n * (c.pitch / 12), seats s c p n,
    if n = 0 then none else some (seats s c p (n - 1))⟩

theorem after_zero (s : Shape) (c : Cls) (p : ℚ) : after s c p 0 = start p := by
  simp [after, start, seats]

theorem after_succ (s : Shape) (c : Cls) (p : ℚ) (n : ℕ) : (after s c p n).step s c = after s c p (n + 1) := by
  simp only [St.step, after, List.range_succ, List.map_append, List.map_cons, List.map_nil, seats,
    Finset.sum_range_succ, if_neg (Nat.succ_ne_zero n), Nat.add_sub_cancel]
  congr 1
  simp only [mkRow]
  push_cast
  ring

theorem row_len (s : Shape) (c : Cls) (p : ℚ) (k : ℕ) : (rowAt s c p k).len = p + (k + 1) * (c.pitch / 12) := by
  simp only [rowAt, mkRow]; ring

/-- The loop stops after the first number of rows that seats everybody. -/
theorem fill_some {s : Shape} {c : Cls} {pax : ℤ} {p : ℚ} {n fuel : ℕ} (h : ∀ j < n, seats s c p j < pax)
    (h1 : pax ≤ seats s c p n) (hf : n ≤ fuel) : fill s c pax fuel (start p) = some (after s c p n) := by
  have key : ∀ d k, k + d = n → ∀ fuel, d ≤ fuel → fill s c pax fuel (after s c p k) = some (after s c p n) := by
    intro d
    induction d with
    | zero =>
      intro k hk fuel _
      obtain rfl : k = n := by omega
      have : ¬ (after s c p k).sum < pax := not_lt.2 h1
      cases fuel <;> simp only [fill, if_neg this]
    | succ d ih =>
      intro k hk fuel hf
      obtain ⟨f, rfl⟩ : ∃ f, fuel = f + 1 := ⟨fuel - 1, by omega⟩
      have : (after s c p k).sum < pax := h k (by omega)
      simp only [fill, if_pos this]
      rw [after_succ]
      exact ih (k + 1) (by omega) f (by omega)
  rw [← after_zero s c p]
  exact key n 0 (by omega) fuel hf

theorem fill_none {s : Shape} {c : Cls} {pax : ℤ} {p : ℚ} {fuel : ℕ} (h : ∀ j ≤ fuel, seats s c p j < pax) :
    fill s c pax fuel (start p) = none := by
  have key : ∀ d k, k + d = fuel → fill s c pax d (after s c p k) = none := by
    intro d
    induction d with
    | zero =>
      intro k hk
      have : (after s c p k).sum < pax := h k (by omega)
      simp only [fill, if_pos this]
    | succ d ih =>
      intro k hk
      have : (after s c p k).sum < pax := h k (by omega)
      simp only [fill, if_pos this]
      rw [after_succ]
      exact ih (k + 1) (by omega)
  rw [← after_zero s c p]
  exact key fuel 0 (by omega)

/-- What a finished loop leaves, whatever the fuel: the least number of rows that seats everybody. -/
theorem fill_spec {s : Shape} {c : Cls} {pax : ℤ} {p : ℚ} {fuel : ℕ} {x : St} (h : fill s c pax fuel (start p) = some x) :
    ∃ n ≤ fuel, x = after s c p n ∧ pax ≤ seats s c p n ∧ ∀ j < n, seats s c p j < pax := by
  by_cases hn : ∃ n, n ≤ fuel ∧ pax ≤ seats s c p n
  · classical
    have h1 := Nat.find_spec hn
    have h2 : ∀ j < Nat.find hn, seats s c p j < pax := by
      intro j hj
      have := Nat.find_min hn hj
      push Not at this
      exact this (by omega)
    have := fill_some h2 h1.2 h1.1
    rw [h] at this
    exact ⟨_, h1.1, Option.some.inj this, h1.2, h2⟩
  · push Not at hn
    rw [fill_none hn] at h
    cases h

/-- The loop ends exactly when some number of rows seats everybody. -/
theorem fill_terminates (s : Shape) (c : Cls) (pax : ℤ) (p : ℚ) :
    (∃ fuel, (fill s c pax fuel (start p)).isSome) ↔ ∃ n, pax ≤ seats s c p n := by
  constructor
  · rintro ⟨fuel, h⟩
    obtain ⟨x, hx⟩ := Option.isSome_iff_exists.1 h
    obtain ⟨n, -, -, h1, -⟩ := fill_spec hx
    exact ⟨n, h1⟩
  · rintro ⟨n, h⟩
    refine ⟨n, ?_⟩
    by_contra h1
    rw [Option.not_isSome_iff_eq_none] at h1
    classical
    have hn : ∃ n, pax ≤ seats s c p n := ⟨n, h⟩
    have h2 : ∀ j < Nat.find hn, seats s c p j < pax := fun j hj => not_le.1 (Nat.find_min hn hj)
    rw [fill_some h2 (Nat.find_spec hn) (Nat.find_min' hn h)] at h1
    cases h1

theorem trunc_lt_one {x : ℚ} (h : x < 1) : trunc x ≤ 0 := by
  simp only [trunc]
  split_ifs with h0
  · have : ⌊x⌋ < 1 := Int.floor_lt.2 (by exact_mod_cast h)
    omega
  · exact Int.ceil_nonpos.2 (by linarith)

theorem one_le_trunc {x : ℚ} (h : 1 ≤ x) : 1 ≤ trunc x := by
  simp only [trunc]
  rw [if_pos (by linarith)]
  exact Int.le_floor.2 (by exact_mod_cast h)

theorem wid_le (s : Shape) (c : Cls) (p : ℚ) : (mkRow s c p).wid ≤ s.width := by
  simp only [mkRow]
  split_ifs
  · exact le_rfl
  · exact min_le_right _ _

/-- A cabin too narrow for its aisles and one seat keeps the loop going forever. -/
theorem narrow_cabin_violated {s : Shape} {c : Cls} {pax : ℤ} (hp : 0 < pax) (hs : 0 < c.seat)
    (h : s.width - c.aisle < c.seat / 12) (p : ℚ) (fuel : ℕ) : fill s c pax fuel (start p) = none := by
  refine fill_none fun j _ => lt_of_le_of_lt ?_ hp
  refine Finset.sum_nonpos fun k _ => trunc_lt_one ?_
  have := wid_le s c (p + k * (c.pitch / 12))
  rw [div_lt_one (by positivity)]
  change (mkRow s c (p + k * (c.pitch / 12))).wid - c.aisle < _
  linarith

/-- From some row on every row has the width of the cabin. -/
theorem wid_eventually {s : Shape} {c : Cls} (ht : 0 ≤ s.tan) (hp : 0 < c.pitch) (p : ℚ) :
    ∃ K, ∀ k ≥ K, (rowAt s c p k).wid = s.width := by
  rcases ht.eq_or_lt with ht | ht
  · exact ⟨0, fun k _ => by simp [rowAt, mkRow, ← ht]⟩
  · obtain ⟨K, hK⟩ := exists_nat_ge ((s.width * s.tan / 2 - p) / (c.pitch / 12))
    refine ⟨K, fun k hk => ?_⟩
    have h1 : ((s.width * s.tan / 2 - p) / (c.pitch / 12)) ≤ k := hK.trans (by exact_mod_cast hk)
    rw [div_le_iff₀ (by positivity)] at h1
    simp only [rowAt, mkRow, if_neg ht.ne']
    refine min_eq_right ?_
    rw [le_div_iff₀ ht]
    have : 0 < c.pitch / 12 := by positivity
    linarith

/-- The loop of a class with passengers ends exactly when the cabin holds its aisles and one seat. -/
theorem terminates_iff {s : Shape} {c : Cls} {pax : ℤ} (hpax : 0 < pax) (ht : 0 ≤ s.tan) (hp : 0 < c.pitch)
    (hs : 0 < c.seat) (p : ℚ) :
    (∃ fuel, (fill s c pax fuel (start p)).isSome) ↔ c.seat / 12 ≤ s.width - c.aisle := by
  constructor
  · rintro ⟨fuel, h⟩
    by_contra h1
    rw [narrow_cabin_violated hpax hs (not_le.1 h1)] at h
    cases h
  · intro h
    rw [fill_terminates]
    obtain ⟨K, hK⟩ := wid_eventually (c := c) ht hp p
    have h1 : ∀ k ≥ K, 1 ≤ (rowAt s c p k).num := by
      intro k hk
      have e : (rowAt s c p k).num = trunc (((rowAt s c p k).wid - c.aisle) / (c.seat / 12)) := rfl
      rw [e, hK k hk]
      apply one_le_trunc
      rwa [one_le_div (by positivity)]
    have h2 : ∀ m : ℕ, seats s c p K + m ≤ seats s c p (K + m) := by
      intro m
      induction m with
      | zero => simp
      | succ m ih =>
        have e : seats s c p (K + (m + 1)) = seats s c p (K + m) + (rowAt s c p (K + m)).num := by
          simp only [seats]; rw [← add_assoc, Finset.sum_range_succ]
        have := h1 (K + m) (by omega)
        rw [e]; push_cast; omega
    refine ⟨K + (pax - seats s c p K).toNat, ?_⟩
    have h3 := h2 (pax - seats s c p K).toNat
    have h4 := Int.self_le_toNat (pax - seats s c p K)
    omega

/-- Rows are a pitch apart and widen toward the cabin width. -/
theorem rows_spec (s : Shape) (c : Cls) (p : ℚ) (k : ℕ) (hp : 0 ≤ c.pitch) (ht : 0 ≤ s.tan) (hs : 0 ≤ c.seat) :
    (rowAt s c p (k + 1)).len = (rowAt s c p k).len + c.pitch / 12 ∧ (rowAt s c p k).wid ≤ (rowAt s c p (k + 1)).wid ∧
    (rowAt s c p k).wid ≤ s.width ∧ (rowAt s c p k).num ≤ (rowAt s c p (k + 1)).num := by
  have hl : (rowAt s c p (k + 1)).len = (rowAt s c p k).len + c.pitch / 12 := by
    rw [row_len, row_len]; push_cast; ring
  have hw : (rowAt s c p k).wid ≤ (rowAt s c p (k + 1)).wid := by
    have e : ∀ j, (rowAt s c p j).wid = if s.tan = 0 then s.width else min (2 * (rowAt s c p j).len / s.tan) s.width :=
      fun _ => rfl
    rw [e, e, hl]
    split_ifs
    · exact le_rfl
    · have : 0 ≤ c.pitch / 12 := by positivity
      refine min_le_min ?_ le_rfl
      gcongr
      linarith
  refine ⟨hl, hw, wid_le _ _ _, ?_⟩
  have e : ∀ j, (rowAt s c p j).num = trunc (((rowAt s c p j).wid - c.aisle) / (c.seat / 12)) := fun _ => rfl
  rw [e, e]
  apply trunc_mono
  gcongr

/-- Where a class with `n` rows ends: at its last row, or at the one before if one passenger would sit in the last. -/
theorem last_spec (s : Shape) (c : Cls) (p : ℚ) (n : ℕ) (pax : ℤ) :
    (after s c p (n + 1)).last pax =
      if pax - seats s c p n < 2 then p + (if n = 0 then 1 else (n : ℚ)) * (c.pitch / 12) else p + (n + 1) * (c.pitch / 12) := by
  have hlen : (after s c p (n + 1)).rows.length = n + 1 := by simp [after]
  have hrow : ∀ i < n + 1, ((after s c p (n + 1)).rows[i]?).map Row.len = some (p + (i + 1) * (c.pitch / 12)) := by
    intro i hi
    simp only [after, List.getElem?_map, List.getElem?_range hi, Option.map_some, row_len]
  have hprev : (after s c p (n + 1)).prev.getD 0 = seats s c p n := by simp [after]
  simp only [St.last, hlen, hprev]
  split_ifs with h1 h2 h3 h3
  · rw [hrow _ (by omega)]; simp [h3]
  · omega
  · omega
  · rw [hrow _ (by omega)]
    obtain ⟨m, rfl⟩ := Nat.exists_eq_succ_of_ne_zero h3
    simp
  · rw [hrow _ (by omega)]; simp

/-- A class whose last row is dropped has one seat too few in the rows it keeps. -/
theorem dropped_row_violated {s : Shape} {c : Cls} {p : ℚ} {n : ℕ} {pax : ℤ} (h : ∀ j < n + 2, seats s c p j < pax)
    (h1 : pax - seats s c p (n + 1) < 2) :
    seats s c p (n + 1) = pax - 1 ∧ (after s c p (n + 2)).last pax = (rowAt s c p n).len := by
  have := h (n + 1) (by omega)
  refine ⟨by omega, ?_⟩
  rw [last_spec, if_pos h1, if_neg (by omega), row_len]
  push_cast
  ring

/-! ## The whole cabin -/

theorem seat_error (o : Opts) (h : o.economy.seat ≤ 0) (fuel : ℕ) : o.compute fuel = some (.error .valueError) := by
  simp [Opts.compute, h]

theorem pax_error (o : Opts) (h1 : o.pax < o.paxF + o.paxB) (fuel : ℕ) :
    o.compute fuel = some (.error .valueError) := by
  simp [Opts.compute, h1]

theorem fill_zero (s : Shape) (c : Cls) {pax : ℤ} (h : pax ≤ 0) (p : ℚ) (fuel : ℕ) :
    fill s c pax fuel (start p) = some (start p) := by
  cases fuel <;> simp [fill, start, not_lt.2 h]

/-- Without economy passengers the layout raises. -/
theorem no_economy_violated (o : Opts) (h : 0 < o.economy.seat) (h1 : o.pax = o.paxF + o.paxB) {fuel : ℕ} {r : Except Err ℚ}
    (hr : o.compute fuel = some r) : r = .error .unboundLocal := by
  have hT : o.paxT ≤ 0 := by simp only [Opts.paxT]; omega
  simp only [Opts.compute, if_neg (not_le.2 h), if_neg (show ¬ o.pax < o.paxF + o.paxB by omega)] at hr
  rcases hp : o.runFirst fuel with _ | p
  · simp [hp] at hr
  · rcases hq : o.runBusiness fuel p with _ | q
    · simp [hp, hq] at hr
    · simp only [hp, hq, Option.bind_some, fill_zero _ _ hT, Option.map_some, Option.some.injEq] at hr
      rw [← hr]; rfl

/-- Lavatories and galley fit beside the last row when the cabin width leaves room for them. -/
def Opts.fits (o : Opts) (q : ℚ) (n : ℕ) : Prop :=
  ((o.paxT / 78 : ℤ) + 1 : ℚ) * 3.5 + (o.paxT : ℚ) * 3 / 70 ≤
    o.shape.width - (o.paxT - seats o.shape o.economy q n) * (o.economy.seat / 12) - o.economy.aisle

/-- The aft bulkhead: 3.5 ft behind the last row of economy seats, one pitch more if the lavatories need a row. -/
theorem aft_spec (o : Opts) (h : 0 ≤ o.paxT) (q : ℚ) (n : ℕ) :
    (o.fits q n → o.aft (after o.shape o.economy q (n + 1)) = .ok (q + (n + 1) * (o.economy.pitch / 12) + 3.5)) ∧
    (¬ o.fits q n → o.aft (after o.shape o.economy q (n + 1)) = .ok (q + (n + 2) * (o.economy.pitch / 12) + 3.5)) := by
  have e1 : trunc ((o.paxT : ℚ) / 78) = o.paxT / 78 := by
    have h1 : (0 : ℚ) ≤ (o.paxT : ℚ) / 78 := by positivity
    rw [trunc, if_pos h1]
    have := Rat.floor_intCast_div_natCast o.paxT 78
    exact_mod_cast this
  have e2 : (after o.shape o.economy q (n + 1)).prev = some (seats o.shape o.economy q n) := by simp [after]
  have e3 : (after o.shape o.economy q (n + 1)).ptr = q + (n + 1) * (o.economy.pitch / 12) := by simp [after]
  have iff : o.fits q n ↔ ((trunc ((o.paxT : ℚ) / 78) + 1 : ℤ) : ℚ) * 42 / 12 + 144 * (o.paxT : ℚ) * 0.15 / 42 / 12 ≤
      o.shape.width - (o.paxT - seats o.shape o.economy q n) * o.economy.seat / 12 - o.economy.aisle := by
    rw [e1, Opts.fits]
    push_cast
    constructor <;> intro h <;> linarith
  constructor
  · intro hf
    simp only [Opts.aft, e2, e3]
    rw [if_pos (iff.1 hf)]
    norm_num
  · intro hf
    simp only [Opts.aft, e2, e3]
    rw [if_neg (fun hc => hf (iff.2 hc))]
    congr 1
    norm_num
    ring

/-- The layout of a cabin with economy class only. -/
theorem economy_only (o : Opts) (hs : 0 < o.economy.seat) (hF : o.paxF = 0) (hB : o.paxB = 0) (hT : 0 < o.pax) {fuel : ℕ}
    {r : Except Err ℚ} (hr : o.compute fuel = some r) :
    ∃ n, (∀ j ≤ n, seats o.shape o.economy (o.nose + o.pilot - o.economy.pitch / 12) j < o.pax) ∧
      o.pax ≤ seats o.shape o.economy (o.nose + o.pilot - o.economy.pitch / 12) (n + 1) ∧
      (r = .ok (o.nose + o.pilot + n * (o.economy.pitch / 12) + 3.5) ∨
        r = .ok (o.nose + o.pilot + (n + 1) * (o.economy.pitch / 12) + 3.5)) := by
  have hp : o.paxT = o.pax := by simp [Opts.paxT, hF, hB]
  rw [Opts.compute, if_neg (not_le.2 hs), if_neg (show ¬ o.pax < o.paxF + o.paxB by omega)] at hr
  simp only [Opts.runFirst, Opts.runBusiness, hF, hB, lt_irrefl, if_false, Opts.fwd, Option.bind_some, hp] at hr
  rcases hf : fill o.shape o.economy o.pax fuel (start (o.nose + o.pilot - o.economy.pitch / 12)) with _ | x
  · rw [hf] at hr; cases hr
  · rw [hf] at hr
    obtain ⟨n, -, rfl, h1, h2⟩ := fill_spec hf
    rcases n with _ | n
    · simp [seats] at h1; omega
    refine ⟨n, fun j hj => h2 j (by omega), h1, ?_⟩
    obtain ⟨a, b⟩ := aft_spec o (by omega) (o.nose + o.pilot - o.economy.pitch / 12) n
    simp only [Option.map_some, Option.some.injEq] at hr
    by_cases hfit : o.fits (o.nose + o.pilot - o.economy.pitch / 12) n
    · left; rw [← hr, a hfit]; congr 1; ring
    · right; rw [← hr, b hfit]; congr 1; ring

/-- First class starts at its station, the next class five feet and a pitch behind its last row. -/
theorem first_to_next (o : Opts) (hF : 0 < o.paxF) {fuel : ℕ} {p : ℚ} (h : o.runFirst fuel = some p) :
    ∃ n, (rowAt o.shape o.first (o.fwd - o.first.pitch / 12) 0).len = o.nose + o.pilot + 8 ∧
      p = (after o.shape o.first (o.fwd - o.first.pitch / 12) (n + 1)).last o.paxF + o.first.pitch / 12 ∧
      o.paxF ≤ seats o.shape o.first (o.fwd - o.first.pitch / 12) (n + 1) ∧
      (0 < o.paxB → (rowAt o.shape o.business (p + 5 - o.business.pitch / 12) 0).len = p + 5) ∧
      (o.paxB ≤ 0 → ∃ q, o.runBusiness fuel p = some q ∧ (rowAt o.shape o.economy q 0).len = p + 5) := by
  simp only [Opts.runFirst, if_pos hF] at h
  rcases hf : fill o.shape o.first o.paxF fuel (start (o.fwd - o.first.pitch / 12)) with _ | x
  · rw [hf] at h; cases h
  · rw [hf] at h
    obtain ⟨n, -, rfl, h1, -⟩ := fill_spec hf
    rcases n with _ | n
    · simp [seats] at h1; omega
    refine ⟨n, ?_, (Option.some.inj h).symm, h1, fun _ => ?_, fun hB => ?_⟩
    · rw [row_len]; simp [Opts.fwd, hF]
    · rw [row_len]; simp
    · refine ⟨p + 5 - o.economy.pitch / 12, ?_, ?_⟩
      · simp [Opts.runBusiness, hF, not_lt.2 hB]
      · rw [row_len]; simp

/-- Economy starts five feet behind the last row of business class: the pitch of that row is lost. -/
theorem business_pitch_violated (o : Opts) (hB : 0 < o.paxB) (hp : 0 < o.business.pitch) {fuel : ℕ} {p q : ℚ}
    (h : o.runBusiness fuel p = some q) :
    ∃ n, (rowAt o.shape o.economy q 0).len =
        (after o.shape o.business (p + 5 - o.business.pitch / 12) (n + 1)).last o.paxB + 5 ∧
      (rowAt o.shape o.economy q 0).len ≠
        (after o.shape o.business (p + 5 - o.business.pitch / 12) (n + 1)).last o.paxB + o.business.pitch / 12 + 5 := by
  simp only [Opts.runBusiness, if_pos hB] at h
  rcases hf : fill o.shape o.business o.paxB fuel (start (p + 5 - o.business.pitch / 12)) with _ | x
  · rw [hf] at h; cases h
  · rw [hf] at h
    obtain ⟨n, -, rfl, h1, -⟩ := fill_spec hf
    rcases n with _ | n
    · simp [seats] at h1; omega
    have e := (Option.some.inj h).symm
    refine ⟨n, ?_, ?_⟩
    · rw [row_len, e]; simp
    · rw [row_len, e]
      intro h2
      have : 0 < o.business.pitch / 12 := by positivity
      simp at h2
      linarith

/-- More fuel changes nothing. -/
theorem fill_more {s : Shape} {c : Cls} {pax : ℤ} {p : ℚ} {fuel more : ℕ} {x : St}
    (h : fill s c pax fuel (start p) = some x) (hm : fuel ≤ more) : fill s c pax more (start p) = some x := by
  obtain ⟨n, hn, rfl, h1, h2⟩ := fill_spec h
  exact fill_some h2 h1 (hn.trans hm)

/-- A class fits: passengers need a cabin that holds the aisles and one seat. -/
def Fits (s : Shape) (c : Cls) (pax : ℤ) : Prop := 0 < pax → 0 < c.pitch ∧ 0 < c.seat ∧ c.seat / 12 ≤ s.width - c.aisle

theorem fill_fits {s : Shape} {c : Cls} {pax : ℤ} (ht : 0 ≤ s.tan) (hp : 0 < pax) (h : Fits s c pax) (p : ℚ) :
    ∃ fuel x, ∀ more ≥ fuel, fill s c pax more (start p) = some x := by
  obtain ⟨h1, h2, h3⟩ := h hp
  obtain ⟨fuel, hf⟩ := (terminates_iff hp ht h1 h2 p).2 h3
  obtain ⟨x, hx⟩ := Option.isSome_iff_exists.1 hf
  exact ⟨fuel, x, fun more hm => fill_more hx hm⟩

/-- A cabin in which every class fits and somebody flies economy is laid out. -/
theorem compute_terminates (o : Opts) (ht : 0 ≤ o.shape.tan) (hT : 0 < o.paxT) (hF : Fits o.shape o.first o.paxF)
    (hB : Fits o.shape o.business o.paxB) (hE : Fits o.shape o.economy o.paxT) : ∃ fuel r, o.compute fuel = some (.ok r) := by
  have h1 : ∃ fuel p, ∀ more ≥ fuel, o.runFirst more = some p := by
    by_cases h : 0 < o.paxF
    · obtain ⟨fuel, x, hx⟩ := fill_fits ht h hF (o.fwd - o.first.pitch / 12)
      exact ⟨fuel, x.last o.paxF + o.first.pitch / 12, fun more hm => by
        rw [Opts.runFirst, if_pos h, hx more hm, Option.map_some]⟩
    · exact ⟨0, o.fwd, fun more _ => by rw [Opts.runFirst, if_neg h]⟩
  obtain ⟨f1, p, h1⟩ := h1
  have h2 : ∃ fuel q, ∀ more ≥ fuel, o.runBusiness more p = some q := by
    by_cases h : 0 < o.paxB
    · obtain ⟨fuel, x, hx⟩ := fill_fits ht h hB (p + 5 - o.business.pitch / 12)
      exact ⟨fuel, x.last o.paxB + 5 - o.economy.pitch / 12, fun more hm => by
        rw [Opts.runBusiness, if_pos h, hx more hm, Option.map_some]⟩
    · by_cases h' : 0 < o.paxF
      · exact ⟨0, _, fun more _ => by rw [Opts.runBusiness, if_neg h, if_pos h']⟩
      · exact ⟨0, _, fun more _ => by rw [Opts.runBusiness, if_neg h, if_neg h']⟩
  obtain ⟨f2, q, h2⟩ := h2
  obtain ⟨f3, x, h3⟩ := fill_fits ht hT hE q
  have hx := h3 f3 le_rfl
  obtain ⟨n, -, rfl, h4, -⟩ := fill_spec hx
  rcases n with _ | n
  · simp [seats] at h4; omega
  have hc : o.compute (f1 + f2 + f3) = some (o.aft (after o.shape o.economy q (n + 1))) := by
    rw [Opts.compute, if_neg (not_le.2 (hE hT).2.1), if_neg (by simp only [Opts.paxT] at hT; omega), h1 _ (by omega),
      Option.bind_some, h2 _ (by omega), Option.bind_some, h3 _ (by omega), Option.map_some]
  obtain ⟨a, b⟩ := aft_spec o hT.le q n
  by_cases hfit : o.fits q n
  · exact ⟨_, _, hc.trans (by rw [a hfit])⟩
  · exact ⟨_, _, hc.trans (by rw [b hfit])⟩

/-- The width left beside the last row is taken from the cabin, although the row may be narrower. -/
def pointed : Opts := ⟨⟨8, 60⟩, ⟨36, 28, 4⟩, ⟨36, 24, 4⟩, ⟨32, 20, 2⟩, 1, 0, 0, 10, 6⟩

theorem last_row_width_violated :
    pointed.compute 1 = some (.ok (pointed.nose + pointed.pilot + 3.5)) ∧
    (rowAt pointed.shape pointed.economy (pointed.nose + pointed.pilot - pointed.economy.pitch / 12) 0).wid = 4 ∧
    (4 : ℚ) - 1 * (pointed.economy.seat / 12) - pointed.economy.aisle < 3.5 := by
  refine ⟨by decide +kernel, by decide +kernel, by decide +kernel⟩

/-- 150 passengers of three classes in a cabin 40 ft wide are seated in the end. -/
def three : Opts := ⟨⟨1, 40⟩, ⟨36, 28, 4⟩, ⟨36, 24, 4⟩, ⟨32, 20, 4⟩, 150, 10, 21, 10, 6⟩

example : (∃ r, three.compute 20 = some (.ok r)) ∧ three.first.seat / 12 ≤ three.shape.width - three.first.aisle := by
  refine ⟨?_, by decide +kernel⟩
  have h : (match three.compute 20 with | some (.ok _) => true | _ => false) = true := by decide +kernel
  split at h
  · exact ⟨_, by assumption⟩
  · cases h

end Verif.CabinRows
