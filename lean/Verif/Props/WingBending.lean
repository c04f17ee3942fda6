import Verif.Model.WingBending
import Verif.Props.Flaps
import Mathlib.Analysis.SpecialFunctions.Integrals.Basic
import Mathlib.MeasureTheory.Integral.IntervalIntegral.FundThmCalculus
import Mathlib.Algebra.Order.Floor.Semiring
import Mathlib.Tactic.FieldSimp
import Mathlib.Tactic.Ring
import Mathlib.Tactic.Linarith
import Mathlib.Tactic.NormNum
import Mathlib.Tactic.Positivity
import Mathlib.Tactic.LinearCombination

/-! ## C103: the detailed wing bending factor -/

namespace Verif.WingBend
open Verif.Flaps (lin line Inc Seg lin_point line_left line_right lin_cont line_cont)
open Set

theorem lastD_eq {α : Type} (a : α) (l : List α) (d : α) : (a :: l).getLastD d = (a :: l).getLast (by simp) := by
  rw [List.getLastD_eq_getLast?, List.getLast?_eq_some_getLast (by simp)]
  rfl

theorem lastD_mem {α : Type} (a : α) (l : List α) (d : α) : (a :: l).getLastD d ∈ a :: l := by
  rw [lastD_eq]
  exact List.getLast_mem _

theorem lastD_cons {α : Type} (a b : α) (l : List α) (d e : α) : (a :: b :: l).getLastD d = (b :: l).getLastD e := by
  rw [lastD_eq, lastD_eq, List.getLast_cons_cons]

/-! ### Load distribution -/

/-- A distribution is accepted exactly between one and three. -/
theorem loadIntensity_some_iff (f x : ℝ) : (loadIntensity f x).isSome ↔ 1 ≤ f ∧ f ≤ 3 := by
  unfold loadIntensity
  split_ifs with h1 h2 h3 h4 h5
  · simp [h1]
  · simp only [Option.isSome_some, true_iff]; constructor <;> linarith
  · simp only [Option.isSome_some, true_iff]; constructor <;> linarith
  · simp only [Option.isSome_some, true_iff]; constructor <;> linarith [h4.1, h4.2]
  · simp only [Option.isSome_some, true_iff]; constructor <;> linarith [h5.1, h5.2]
  · simp only [Option.isSome_none, Bool.false_eq_true, false_iff, not_and, not_le]
    intro h
    rcases lt_or_eq_of_le h with h | h
    · rcases lt_trichotomy f 2 with g | g | g
      · exact absurd ⟨h, g⟩ h4
      · exact absurd g h2
      · rcases lt_trichotomy f 3 with k | k | k
        · exact absurd ⟨g, k⟩ h5
        · exact absurd k h3
        · exact k
    · exact absurd h.symm h1

/-- The three shapes and the blends between them by one formula. -/
theorem loadIntensity_eq {f x v : ℝ} (h : loadIntensity f x = some v) :
    v = if f ≤ 2 then (f - 1) * √(1 - x ^ 2) + (2 - f) * (1 - x) else (3 - f) * √(1 - x ^ 2) + (f - 2) := by
  unfold loadIntensity at h
  split_ifs at h with h1 h2 h3 h4 h5 <;> obtain rfl := Option.some.inj h
  · rw [if_pos (by linarith), h1]; ring
  · rw [if_pos (by linarith), h2]; ring
  · rw [if_neg (by linarith), h3]; ring
  · rw [if_pos h4.2.le]
  · rw [if_neg (not_le.2 h5.1)]; ring

theorem sqrt_between {x : ℝ} (h0 : 0 ≤ x) (h1 : x ≤ 1) : 1 - x ≤ √(1 - x ^ 2) ∧ √(1 - x ^ 2) ≤ 1 := by
  constructor
  · apply Real.le_sqrt_of_sq_le
    nlinarith
  · rw [Real.sqrt_le_left (by norm_num)]
    nlinarith

/-- On the wing the intensity lies between zero and one. -/
theorem loadIntensity_mem {f x v : ℝ} (h : loadIntensity f x = some v) (h0 : 0 ≤ x) (h1 : x ≤ 1) : v ∈ Icc 0 1 := by
  have hs : (loadIntensity f x).isSome := by rw [h]; rfl
  obtain ⟨f1, f3⟩ := (loadIntensity_some_iff f x).1 hs
  obtain ⟨s1, s2⟩ := sqrt_between h0 h1
  rw [loadIntensity_eq h]
  generalize √(1 - x ^ 2) = r at *
  split_ifs with k
  · constructor <;> nlinarith
  · push Not at k
    constructor <;> nlinarith

/-- A larger number means a fuller distribution, at every station. -/
theorem loadIntensity_mono {f g x v w : ℝ} (h : loadIntensity f x = some v) (h' : loadIntensity g x = some w)
    (h0 : 0 ≤ x) (h1 : x ≤ 1) (hfg : f ≤ g) : v ≤ w := by
  obtain ⟨f1, f3⟩ := (loadIntensity_some_iff f x).1 (by rw [h]; rfl)
  obtain ⟨g1, g3⟩ := (loadIntensity_some_iff g x).1 (by rw [h']; rfl)
  obtain ⟨s1, s2⟩ := sqrt_between h0 h1
  rw [loadIntensity_eq h, loadIntensity_eq h']
  generalize √(1 - x ^ 2) = r at *
  split_ifs with k l l
  · nlinarith
  · push Not at l
    nlinarith
  · linarith
  · nlinarith

example : loadIntensity (3 / 2) 0 = some 1 := by
  unfold loadIntensity
  norm_num

/-! ### Integration stations -/

theorem linspace_length (a b : ℝ) (n : ℕ) (e : Bool) : (linspace a b n e).length = n := by simp [linspace]

theorem linspace_mem {a b x : ℝ} {n : ℕ} (hab : a < b) (h : x ∈ linspace a b n false) : a ≤ x ∧ x < b := by
  simp only [linspace, List.mem_map, List.mem_range] at h
  obtain ⟨i, hi, rfl⟩ := h
  have hn : (0 : ℝ) < n := by exact_mod_cast Nat.zero_lt_of_lt hi
  have hi' : (i : ℝ) < n := by exact_mod_cast hi
  have hd := sub_pos.2 hab
  simp only [Bool.false_eq_true, if_false]
  refine ⟨le_add_of_nonneg_right (by positivity), ?_⟩
  have : (i : ℝ) * ((b - a) / n) < b - a := by
    rw [mul_div_assoc', div_lt_iff₀ hn]
    nlinarith
  linarith

theorem linspace_mem_end {a b x : ℝ} {n : ℕ} (hab : a < b) (h : x ∈ linspace a b (n + 1) true) : a ≤ x ∧ x ≤ b := by
  simp only [linspace, List.mem_map, List.mem_range] at h
  obtain ⟨i, hi, rfl⟩ := h
  have hi' : (i : ℝ) ≤ n := by exact_mod_cast Nat.lt_succ_iff.1 hi
  have hd := sub_pos.2 hab
  simp only [if_true]
  push_cast
  rw [add_sub_cancel_right]
  refine ⟨le_add_of_nonneg_right (by positivity), ?_⟩
  rcases Nat.eq_zero_or_pos n with rfl | hn
  · simp; linarith
  · have hn' : (0 : ℝ) < n := by exact_mod_cast hn
    have : (i : ℝ) * ((b - a) / n) ≤ b - a := by
      rw [mul_div_assoc', div_le_iff₀ hn']
      nlinarith
    linarith

theorem linspace_sorted {a b : ℝ} (n : ℕ) (e : Bool) (hab : a < b) : (linspace a b n e).Pairwise (· < ·) := by
  unfold linspace
  rw [List.pairwise_map]
  refine List.Pairwise.imp_of_mem ?_ (List.pairwise_lt_range)
  intro i j hi hj hij
  have hj' := List.mem_range.1 hj
  have hd := sub_pos.2 hab
  have hij' : (i : ℝ) < j := by exact_mod_cast hij
  have hpos : (0 : ℝ) < (b - a) / (if e then (n : ℝ) - 1 else n) := by
    apply div_pos hd
    split_ifs
    · have : (1 : ℝ) < n := by exact_mod_cast lt_of_le_of_lt (Nat.succ_le_of_lt (Nat.zero_lt_of_lt hij)) hj'
      linarith
    · exact_mod_cast Nat.zero_lt_of_lt hj'
  have := mul_lt_mul_of_pos_right hij' hpos
  linarith

/-- The stations lie on the wing. -/
theorem stations_mem {t : ℝ} {s : List ℝ} (hs : s.Pairwise (· < ·)) {x : ℝ} (hx : x ∈ stations t s) :
    s.headD 0 ≤ x ∧ x ≤ s.getLastD 0 := by
  induction s with
  | nil => simp [stations] at hx
  | cons a s ih =>
    rcases s with _ | ⟨b, _ | ⟨c, r⟩⟩
    · simp [stations] at hx
    · have hab : a < b := by simpa using hs
      rw [stations] at hx
      simpa using linspace_mem_end hab hx
    · have hab : a < b := (List.pairwise_cons.1 hs).1 b (by simp)
      have hs' := (List.pairwise_cons.1 hs).2
      have hbl : b ≤ (b :: c :: r).getLastD 0 := by
        have : (b :: c :: r).getLastD 0 ∈ c :: r := lastD_cons b c r 0 0 ▸ lastD_mem c r 0
        exact ((List.pairwise_cons.1 hs').1 _ this).le
      have el : (a :: b :: c :: r).getLastD 0 = (b :: c :: r).getLastD 0 := by simp
      rw [el]
      rw [stations, List.mem_append] at hx
      rcases hx with hx | hx
      · obtain ⟨h1, h2⟩ := linspace_mem hab hx
        exact ⟨h1, h2.le.trans hbl⟩
      · obtain ⟨h1, h2⟩ := ih hs' hx
        exact ⟨hab.le.trans h1, h2⟩

/-- They increase strictly: no interval is empty, whatever the input stations. -/
theorem stations_sorted {t : ℝ} {s : List ℝ} (hs : s.Pairwise (· < ·)) : (stations t s).Pairwise (· < ·) := by
  induction s with
  | nil => simp [stations]
  | cons a s ih =>
    rcases s with _ | ⟨b, _ | ⟨c, r⟩⟩
    · simp [stations]
    · have hab : a < b := by simpa using hs
      exact linspace_sorted _ _ hab
    · have hab : a < b := (List.pairwise_cons.1 hs).1 b (by simp)
      have hs' := (List.pairwise_cons.1 hs).2
      rw [stations, List.pairwise_append]
      refine ⟨linspace_sorted _ _ hab, ih hs', fun x hx y hy => ?_⟩
      exact (linspace_mem hab hx).2.trans_le (stations_mem hs' hy).1

/-- Every station has its sweep. -/
theorem sweeps_length {t : ℝ} {s w : List ℝ} (h : s.length = w.length + 1) : (sweeps t s w).length = (stations t s).length := by
  induction s generalizing w with
  | nil => simp at h
  | cons a s ih =>
    rcases s with _ | ⟨b, _ | ⟨c, r⟩⟩
    · have : w = [] := by simpa using h.symm
      simp [sweeps, stations]
    · rcases w with _ | ⟨v, w⟩
      · simp at h
      · simp [sweeps, stations, linspace_length]
    · rcases w with _ | ⟨v, w⟩
      · simp at h
      · have := ih (w := w) (by simpa using h)
        simp [sweeps, stations, linspace_length, this]

theorem perSection_bounds {t d : ℝ} (ht : 0 < t) (hd : 0 ≤ d) :
    (perSection t d : ℝ) ≤ d / t + 1 / 2 ∧ d / t - 1 / 2 < perSection t d := by
  have h : 0 ≤ d / t + 1 / 2 := by positivity
  unfold perSection
  rw [abs_of_nonneg h]
  have h1 := Nat.floor_le h
  have h2 := Nat.lt_floor_add_one (d / t + 1 / 2)
  exact ⟨h1, by linarith⟩

/-- The number of intervals differs from the number asked for by at most half the number of sections. -/
theorem stations_count {t : ℝ} (ht : 0 < t) {s : List ℝ} (hs : s.Pairwise (· < ·)) (h2 : 2 ≤ s.length) :
    |((stations t s).length : ℝ) - 1 - (s.getLastD 0 - s.headD 0) / t| ≤ ((s.length : ℝ) - 1) / 2 := by
  induction s with
  | nil => simp at h2
  | cons a s ih =>
    rcases s with _ | ⟨b, _ | ⟨c, r⟩⟩
    · simp at h2
    · have hab : a < b := by simpa using hs
      obtain ⟨p, q⟩ := perSection_bounds ht (sub_pos.2 hab).le
      simp only [stations, linspace_length]
      rw [abs_le]
      push_cast
      simp only [List.getLastD_cons, List.getLastD_nil, List.headD_cons, List.length_cons, List.length_nil]
      push_cast
      constructor <;> linarith
    · have hab : a < b := (List.pairwise_cons.1 hs).1 b (by simp)
      have hs' := (List.pairwise_cons.1 hs).2
      have := ih hs' (by simp)
      obtain ⟨p, q⟩ := perSection_bounds ht (sub_pos.2 hab).le
      rw [stations, List.length_append, linspace_length]
      have el : (a :: b :: c :: r).getLastD 0 = (b :: c :: r).getLastD 0 := by simp
      rw [el]
      generalize (b :: c :: r).getLastD 0 = z at *
      generalize (stations t (b :: c :: r)).length = m at *
      simp only [List.headD_cons, List.length_cons] at this ⊢
      push_cast at this ⊢
      rw [abs_le] at this ⊢
      have e1 : (z - a) / t = (z - b) / t + (b - a) / t := by ring
      rw [e1]
      constructor <;> linarith [this.1, this.2]

/-- The last station. -/
theorem stations_last {t a b : ℝ} (l : List ℝ) (hab : a < b) :
    (stations t (l ++ [a, b])).getLast? = some (if perSection t (b - a) = 0 then a else b) := by
  induction l with
  | nil =>
    show (stations t [a, b]).getLast? = _
    rw [stations]
    unfold linspace
    rw [List.range_succ, List.map_append, List.map_singleton, List.getLast?_concat]
    simp only [if_true]
    push_cast
    rw [add_sub_cancel_right]
    split_ifs with h
    · rw [h]; simp
    · have : ((perSection t (b - a) : ℕ) : ℝ) ≠ 0 := by exact_mod_cast h
      congr 1
      field_simp
      ring
  | cons x l ih =>
    have : ∃ y z r, l ++ [a, b] = y :: z :: r := by
      rcases l with _ | ⟨y, _ | ⟨z, r⟩⟩
      · exact ⟨a, b, [], rfl⟩
      · exact ⟨y, a, [b], rfl⟩
      · exact ⟨y, z, r ++ [a, b], rfl⟩
    obtain ⟨y, z, r, e⟩ := this
    rw [List.cons_append, e, stations, List.getLast?_append, ← e, ih]
    simp

/-- The tip belongs to the stations exactly when the last section is at least half as wide as the target. -/
theorem tip_reached_iff {t a b : ℝ} (ht : 0 < t) (l : List ℝ) (hab : a < b) :
    (stations t (l ++ [a, b])).getLast? = some b ↔ t / 2 ≤ b - a := by
  rw [stations_last l hab]
  have hd := (sub_pos.2 hab).le
  have k : perSection t (b - a) = 0 ↔ b - a < t / 2 := by
    unfold perSection
    rw [abs_of_nonneg (by positivity), Nat.floor_eq_zero]
    constructor
    · intro h
      have : (b - a) / t < 1 / 2 := by linarith
      rw [div_lt_iff₀ ht] at this
      linarith
    · intro h
      have : (b - a) / t < 1 / 2 := by rw [div_lt_iff₀ ht]; linarith
      linarith
  split_ifs with h
  · have := k.1 h
    constructor
    · intro e
      exact absurd (Option.some.inj e) hab.ne
    · intro e
      linarith
  · have : ¬ b - a < t / 2 := fun q => h (k.2 q)
    simp only [true_iff]
    linarith

/-- With fifty stations a last section of half a percent of the semispan is left out of all sums. -/
theorem tip_violated : (stations (targetDy [0, 199 / 200, 1] 50) [0, 199 / 200, 1]).getLast? = some (199 / 200) := by
  have : targetDy [0, 199 / 200, 1] 50 = 1 / 50 := by norm_num [targetDy]
  rw [this]
  have h := stations_last (t := 1 / 50) (a := 199 / 200) (b := 1) [0] (by norm_num)
  have k : perSection (1 / 50) (1 - 199 / 200) = 0 := by
    unfold perSection
    rw [Nat.floor_eq_zero]
    norm_num [abs_lt]
  rw [if_pos k] at h
  exact h

/-! ### Average sweep -/

theorem sweep_sum (w : ℝ) (y : List ℝ) (hy : y ≠ []) :
    (List.zipWith (fun (a : ℝ) s => a * s) (pairs (fun a b => ((b - a) + 2 * a) * (b - a)) y)
      (List.replicate (y.length - 1) w)).sum = w * (y.getLastD 0 ^ 2 - y.headD 0 ^ 2) := by
  induction y with
  | nil => exact absurd rfl hy
  | cons a y ih =>
    rcases y with _ | ⟨b, y⟩
    · simp [pairs]
    · have := ih (by simp)
      simp only [pairs, List.tail_cons, List.zipWith_cons_cons, List.length_cons, Nat.add_sub_cancel,
        List.replicate_succ, List.sum_cons, List.headD_cons] at this ⊢
      rw [this]
      simp only [List.getLastD_cons]
      ring

/-- For constant sweep the blended wing body weighs it over the whole span… -/
theorem avgSweepBWB_const (w : ℝ) {y : List ℝ} (hy : y ≠ []) (h0 : y.headD 0 = 0) (h1 : y.getLastD 0 = 1) :
    avgSweepBWB y (List.replicate y.length w) = w := by
  unfold avgSweepBWB
  rw [List.dropLast_replicate, sweep_sum w y hy, h0, h1]
  ring

/-- …but the conventional wing leaves out the first interval, so that the average of a constant is not the constant. -/
theorem avgSweep_partial (w : ℝ) {a b : ℝ} {y : List ℝ} (h1 : (b :: y).getLastD 0 = 1) :
    avgSweep (a :: b :: y) (List.replicate (a :: b :: y).length w) = w * (1 - b ^ 2) := by
  unfold avgSweep
  have := sweep_sum w (b :: y) (by simp)
  rw [h1] at this
  simpa [List.replicate_succ, List.dropLast_replicate] using this

theorem avgSweep_violated {w a b : ℝ} (hw : w ≠ 0) (hb : 0 < b) {y : List ℝ} (h1 : (b :: y).getLastD 0 = 1) :
    avgSweep (a :: b :: y) (List.replicate (a :: b :: y).length w) ≠ w := by
  rw [avgSweep_partial w h1]
  intro h
  have : w * b ^ 2 = 0 := by linear_combination -h
  rcases mul_eq_zero.1 this with h | h
  · exact hw h
  · exact hb.ne' (pow_eq_zero_iff (two_ne_zero)|>.1 h)

example : avgSweep [0, 1 / 2, 1] (List.replicate 3 20) = 15 := by norm_num [avgSweep, pairs]

/-! ### Load and moment as integrals -/

/-- `chord` between two stations. -/
noncomputable def cOf (l : List Node) : ℝ → ℝ := lin (l.map fun a => (a.y, a.c))

/-- Load intensity between two stations. -/
noncomputable def pOf (l : List Node) : ℝ → ℝ := lin (l.map fun a => (a.y, a.p))

/-- The stations increase. -/
def Sorted (l : List Node) : Prop := l.Pairwise fun a b => a.y < b.y

theorem Sorted.inc {l : List Node} (h : Sorted l) (f : Node → ℝ) : Inc (l.map fun a => (a.y, f a)) := by
  induction l with
  | nil => trivial
  | cons a l ih =>
    rcases l with _ | ⟨b, l⟩
    · trivial
    · exact ⟨(List.pairwise_cons.1 h).1 b (by simp), ih (List.pairwise_cons.1 h).2⟩

theorem quad_integral (a b c0 c1 p0 p1 : ℝ) (h : a < b) :
    (∫ x in a..b, line (a, c0) (b, c1) x * line (a, p0) (b, p1) x)
      = (b - a) * (c0 * (2 * p0 + p1) + c1 * (2 * p1 + p0)) / 6 := by
  have hd : b - a ≠ 0 := (sub_pos.2 h).ne'
  let m := (c1 - c0) / (b - a)
  let n := (p1 - p0) / (b - a)
  have hF : ∀ x ∈ uIcc a b, HasDerivAt (fun x => c0 * p0 * (x - a) + (c0 * n + m * p0) * (x - a) ^ 2 / 2
      + m * n * (x - a) ^ 3 / 3) (line (a, c0) (b, c1) x * line (a, p0) (b, p1) x) x := by
    intro x _
    have u : HasDerivAt (fun x : ℝ => x - a) 1 x := (hasDerivAt_id x).sub_const a
    have := ((u.const_mul (c0 * p0)).add (((u.pow 2).const_mul (c0 * n + m * p0)).div_const 2)).add
      (((u.pow 3).const_mul (m * n)).div_const 3)
    refine this.congr_deriv ?_
    simp only [line, m, n]
    push_cast
    ring
  rw [intervalIntegral.integral_eq_sub_of_hasDerivAt hF
    (((line_cont _ _).mul (line_cont _ _)).intervalIntegrable _ _)]
  simp only [m, n]
  field_simp
  ring

theorem cubic_integral (a b c0 c1 p0 p1 : ℝ) (h : a < b) :
    (∫ x in a..b, (x - a) * (line (a, c0) (b, c1) x * line (a, p0) (b, p1) x))
      = (b - a) ^ 2 * (c0 * (p0 + p1) + c1 * (3 * p1 + p0)) / 12 := by
  have hd : b - a ≠ 0 := (sub_pos.2 h).ne'
  let m := (c1 - c0) / (b - a)
  let n := (p1 - p0) / (b - a)
  have hF : ∀ x ∈ uIcc a b, HasDerivAt (fun x => c0 * p0 * (x - a) ^ 2 / 2 + (c0 * n + m * p0) * (x - a) ^ 3 / 3
      + m * n * (x - a) ^ 4 / 4) ((x - a) * (line (a, c0) (b, c1) x * line (a, p0) (b, p1) x)) x := by
    intro x _
    have u : HasDerivAt (fun x : ℝ => x - a) 1 x := (hasDerivAt_id x).sub_const a
    have := ((((u.pow 2).const_mul (c0 * p0)).div_const 2).add (((u.pow 3).const_mul (c0 * n + m * p0)).div_const 3)).add
      (((u.pow 4).const_mul (m * n)).div_const 4)
    refine this.congr_deriv ?_
    simp only [line, m, n]
    push_cast
    ring
  rw [intervalIntegral.integral_eq_sub_of_hasDerivAt hF
    ((((continuous_id.sub continuous_const).mul ((line_cont _ _).mul (line_cont _ _)))).intervalIntegrable _ _)]
  simp only [m, n]
  field_simp
  ring

/-- The load of an interval is the integral of chord times intensity, both linear. -/
theorem delLoad_integral {a b : Node} (h : a.y < b.y) :
    delLoad a b = ∫ x in a.y..b.y, line (a.y, a.c) (b.y, b.c) x * line (a.y, a.p) (b.y, b.p) x :=
  (quad_integral _ _ _ _ _ _ h).symm

/-- Its moment about the inner station is the integral with the arm. -/
theorem delMoment_integral {a b : Node} (h : a.y < b.y) :
    delMoment a b = ∫ x in a.y..b.y, (x - a.y) * (line (a.y, a.c) (b.y, b.c) x * line (a.y, a.p) (b.y, b.p) x) :=
  (cubic_integral _ _ _ _ _ _ h).symm

theorem lin_head {a b : ℝ × ℝ} {r : List (ℝ × ℝ)} {x : ℝ} (hx : x ≤ b.1) : lin (a :: b :: r) x = line a b x := by
  cases r with
  | nil => rw [lin]
  | cons c r => rw [lin, if_pos hx]

theorem lin_tail {a b c : ℝ × ℝ} {r : List (ℝ × ℝ)} (h : Inc (a :: b :: c :: r)) {x : ℝ} (hx : b.1 ≤ x) :
    lin (a :: b :: c :: r) x = lin (b :: c :: r) x := by
  rw [lin]
  split_ifs with k
  · have e : x = b.1 := le_antisymm k hx
    rw [e, line_right h.1, lin_point h.2 b (by simp)]
  · rfl

theorem cp_cont {l : List Node} (h : Sorted l) : Continuous fun x => cOf l x * pOf l x :=
  (lin_cont (h.inc _)).mul (lin_cont (h.inc _))

theorem cp_head {a b : Node} {l : List Node} {f : ℝ → ℝ} (h : a.y < b.y) :
    (∫ x in a.y..b.y, f x * (cOf (a :: b :: l) x * pOf (a :: b :: l) x))
      = ∫ x in a.y..b.y, f x * (line (a.y, a.c) (b.y, b.c) x * line (a.y, a.p) (b.y, b.p) x) := by
  refine intervalIntegral.integral_congr fun x hx => ?_
  rw [uIcc_of_le h.le] at hx
  show f x * (cOf (a :: b :: l) x * pOf (a :: b :: l) x) = _
  unfold cOf pOf
  simp only [List.map_cons]
  rw [lin_head (by exact hx.2), lin_head (by exact hx.2)]

theorem cp_tail {a b : Node} {l : List Node} (h : Sorted (a :: b :: l)) (f : ℝ → ℝ) :
    (∫ x in b.y..((b :: l).getLastD b).y, f x * (cOf (a :: b :: l) x * pOf (a :: b :: l) x))
      = ∫ x in b.y..((b :: l).getLastD b).y, f x * (cOf (b :: l) x * pOf (b :: l) x) := by
  rcases l with _ | ⟨c, l⟩
  · simp
  · refine intervalIntegral.integral_congr fun x hx => ?_
    have hb : b.y ≤ ((b :: c :: l).getLastD b).y := by
      have hm : (b :: c :: l).getLastD b ∈ c :: l := lastD_cons b c l b b ▸ lastD_mem c l b
      exact ((List.pairwise_cons.1 (List.pairwise_cons.1 h).2).1 _ hm).le
    rw [uIcc_of_le hb] at hx
    show f x * (cOf (a :: b :: c :: l) x * pOf (a :: b :: c :: l) x) = f x * (cOf (b :: c :: l) x * pOf (b :: c :: l) x)
    unfold cOf pOf
    have i1 := h.inc Node.c
    have i2 := h.inc Node.p
    simp only [List.map_cons] at i1 i2 ⊢
    rw [lin_tail i1 (by exact hx.1), lin_tail i2 (by exact hx.1)]

/-- The load outboard of the first station. -/
noncomputable def loadFrom (l : List Node) (x0 xe : ℝ) : ℝ := ∫ x in x0..xe, cOf l x * pOf l x

/-- The total load is the integral over the wing. -/
theorem el_integral {a : Node} {l : List Node} (h : Sorted (a :: l)) :
    el (a :: l) = ∫ x in a.y..((a :: l).getLastD a).y, cOf (a :: l) x * pOf (a :: l) x := by
  induction l generalizing a with
  | nil => simp [el, pairs]
  | cons b l ih =>
    have hab : a.y < b.y := (List.pairwise_cons.1 h).1 b (by simp)
    have h' := (List.pairwise_cons.1 h).2
    have e : el (a :: b :: l) = delLoad a b + el (b :: l) := by simp [el, pairs]
    have el' : (a :: b :: l).getLastD a = (b :: l).getLastD b := lastD_cons a b l a b
    have i := fun u v => (cp_cont h).intervalIntegrable (μ := MeasureTheory.volume) u v
    rw [e, el', ← intervalIntegral.integral_add_adjacent_intervals (i a.y b.y) (i b.y _), ih h', delLoad_integral hab]
    have t1 := cp_head (l := l) (f := fun _ => 1) hab
    have t2 := cp_tail h (fun _ => 1)
    simp only [one_mul] at t1 t2
    rw [t1, t2]

/-! ### Sums from the tip -/

/-- Sums from each element to the end. -/
noncomputable def sums : List ℝ → List ℝ
  | [] => []
  | a :: l => (a + l.sum) :: sums l

theorem cumsum_append (l : List ℝ) (x : ℝ) : cumsum (l ++ [x]) = cumsum l ++ [l.sum + x] := by
  unfold cumsum
  rw [List.scanl_append]
  have : l.foldl (· + ·) 0 = l.sum := by rw [← List.sum_eq_foldl]
  rcases e : List.scanl (fun x1 x2 : ℝ => x1 + x2) 0 l with _ | ⟨y, ys⟩
  · have := congrArg List.length e
    simp at this
  · simp [this]

/-- `np.cumsum(x[::-1])[::-1]` gives the sums to the end. -/
theorem suffix_eq (l : List ℝ) : suffix l = sums l := by
  induction l with
  | nil => simp [suffix, cumsum, sums]
  | cons a l ih =>
    unfold suffix at ih ⊢
    rw [List.reverse_cons, cumsum_append, List.reverse_append, ih, sums]
    simp [add_comm]

theorem outboard_cons (a b : ℝ) (l : List ℝ) : outboard (a :: b :: l) = (b :: l).sum :: outboard (b :: l) := by
  unfold outboard
  have e1 : (a :: b :: l).reverse.dropLast = (b :: l).reverse := by
    rw [List.reverse_cons, List.dropLast_concat]
  have e2 : (b :: l).reverse.dropLast = l.reverse := by
    rw [List.reverse_cons, List.dropLast_concat]
  rw [e1, e2]
  have : cumsum (b :: l).reverse = cumsum l.reverse ++ [(b :: l).sum] := by
    rw [List.reverse_cons, cumsum_append]
    simp [add_comm]
  rw [this]
  simp

/-- `load_path_length` is the load beyond the outer end of each interval. -/
theorem outboard_eq (l : List ℝ) (hl : l ≠ []) : outboard l = (sums l).tail ++ [0] := by
  induction l with
  | nil => exact absurd rfl hl
  | cons a l ih =>
    rcases l with _ | ⟨b, l⟩
    · simp [outboard, cumsum, sums]
    · rw [outboard_cons, ih (by simp)]
      simp [sums]

theorem emi_cons {a b c : Node} {l : List Node} {k : ℝ} {csw : List ℝ} :
    emi (a :: b :: c :: l) (k :: csw)
      = (delMoment a b + (b.y - a.y) * el (b :: c :: l)) * k :: emi (b :: c :: l) csw := by
  unfold emi el
  have e : pairs delLoad (a :: b :: c :: l) = delLoad a b :: pairs delLoad (b :: c :: l) := by simp [pairs]
  have e' : pairs delLoad (b :: c :: l) = delLoad b c :: pairs delLoad (c :: l) := by simp [pairs]
  rw [e, e', outboard_cons, ← e']
  simp [pairs]

theorem emi_two {a b : Node} {k : ℝ} {csw : List ℝ} : emi [a, b] (k :: csw) = [delMoment a b * k] := by
  simp [emi, pairs, outboard, cumsum]

/-- The moment of the load beyond `a` about `a`. -/
noncomputable def momentAt (l : List Node) (e : ℝ) (a : Node) : ℝ := ∫ x in a.y..e, (x - a.y) * (cOf l x * pOf l x)

theorem moment_step {a b : Node} {l : List Node} (h : Sorted (a :: b :: l)) :
    momentAt (a :: b :: l) ((b :: l).getLastD b).y a
      = delMoment a b + (b.y - a.y) * el (b :: l) + momentAt (b :: l) ((b :: l).getLastD b).y b := by
  have hab : a.y < b.y := (List.pairwise_cons.1 h).1 b (by simp)
  have h' := (List.pairwise_cons.1 h).2
  unfold momentAt
  have cc := cp_cont h
  have i : ∀ u v, IntervalIntegrable (fun x => (x - a.y) * (cOf (a :: b :: l) x * pOf (a :: b :: l) x))
      MeasureTheory.volume u v := fun u v =>
    ((continuous_id.sub continuous_const).mul cc).intervalIntegrable u v
  rw [← intervalIntegral.integral_add_adjacent_intervals (i a.y b.y) (i b.y _), cp_head (f := fun x => x - a.y) hab,
    ← delMoment_integral hab, cp_tail h (fun x => x - a.y), el_integral h', add_assoc]
  congr 1
  have cc' := cp_cont h'
  have i1 : ∀ u v, IntervalIntegrable (fun x => (b.y - a.y) * (cOf (b :: l) x * pOf (b :: l) x))
      MeasureTheory.volume u v := fun u v => (continuous_const.mul cc').intervalIntegrable u v
  have i2 : ∀ u v, IntervalIntegrable (fun x => (x - b.y) * (cOf (b :: l) x * pOf (b :: l) x))
      MeasureTheory.volume u v := fun u v => ((continuous_id.sub continuous_const).mul cc').intervalIntegrable u v
  rw [← intervalIntegral.integral_const_mul, ← intervalIntegral.integral_add (i1 _ _) (i2 _ _)]
  refine intervalIntegral.integral_congr fun x _ => ?_
  show _ = (b.y - a.y) * _ + (x - b.y) * _
  ring

theorem momentAt_congr {a b c : Node} {l : List Node} (h : Sorted (a :: b :: c :: l)) {d : Node} (hd : d ∈ b :: c :: l) :
    momentAt (a :: b :: c :: l) ((b :: c :: l).getLastD b).y d = momentAt (b :: c :: l) ((b :: c :: l).getLastD b).y d := by
  unfold momentAt
  have h' := (List.pairwise_cons.1 h).2
  have hbd : b.y ≤ d.y := by
    rcases List.mem_cons.1 hd with rfl | hd
    · exact le_rfl
    · exact ((List.pairwise_cons.1 h').1 d hd).le
  have hm : (b :: c :: l).getLastD b ∈ c :: l := lastD_cons b c l b b ▸ lastD_mem c l b
  have hbe : b.y ≤ ((b :: c :: l).getLastD b).y := ((List.pairwise_cons.1 h').1 _ hm).le
  refine intervalIntegral.integral_congr fun x hx => ?_
  have hx' : b.y ≤ x := (le_min hbd hbe).trans hx.1
  have i1 := h.inc Node.c
  have i2 := h.inc Node.p
  show (x - d.y) * (cOf (a :: b :: c :: l) x * pOf (a :: b :: c :: l) x) = (x - d.y) * (cOf (b :: c :: l) x * pOf (b :: c :: l) x)
  unfold cOf pOf
  simp only [List.map_cons] at i1 i2 ⊢
  rw [lin_tail i1 hx', lin_tail i2 hx']

theorem moment_sums {k : ℝ} {a : Node} {l : List Node} (h : Sorted (a :: l)) :
    sums (emi (a :: l) (List.replicate l.length k))
      = (a :: l).dropLast.map fun d => k * momentAt (a :: l) ((a :: l).getLastD a).y d := by
  induction l generalizing a with
  | nil => simp [emi, pairs, sums]
  | cons b l ih =>
    have h' := (List.pairwise_cons.1 h).2
    have el' : (a :: b :: l).getLastD a = (b :: l).getLastD b := lastD_cons a b l a b
    rcases l with _ | ⟨c, l⟩
    · have := moment_step h
      rw [List.length_singleton, List.replicate_one, emi_two]
      simp only [sums, List.sum_nil, add_zero, List.dropLast_cons_cons, List.dropLast_singleton, List.map_cons,
        List.map_nil, List.getLastD_cons, List.getLastD_nil] at this ⊢
      rw [this]
      have z : el [b] = 0 := by simp [el, pairs]
      have z' : momentAt [b] b.y b = 0 := by simp [momentAt]
      rw [z, z']
      congr 1
      ring
    · have hi := ih h'
      have dl : (a :: b :: c :: l).dropLast = a :: (b :: c :: l).dropLast := rfl
      rw [List.length_cons, List.replicate_succ, emi_cons, sums, hi, el', dl, List.map_cons]
      have head : (emi (b :: c :: l) (List.replicate (c :: l).length k)).sum
          = k * momentAt (b :: c :: l) ((b :: c :: l).getLastD b).y b := by
        have e1 : ∀ q : List ℝ, q.sum = (sums q).headD 0 := by
          intro q; cases q <;> simp [sums]
        rw [e1, hi]
        simp
      rw [head, moment_step h]
      congr 1
      · ring
      · refine List.map_congr_left fun d hd => ?_
        rw [momentAt_congr h (List.dropLast_subset _ hd)]

/-- With constant sweep the moment at every station is that of all the load beyond it, divided by the cosine. -/
theorem totalMoment_integral {k : ℝ} {a : Node} {l : List Node} (h : Sorted (a :: l)) :
    totalMoment (a :: l) (List.replicate l.length k)
      = (a :: l).dropLast.map fun d =>
          k * ∫ x in d.y..((a :: l).getLastD a).y, (x - d.y) * (cOf (a :: l) x * pOf (a :: l) x) := by
  unfold totalMoment
  rw [suffix_eq, moment_sums h]
  rfl

example : totalMoment [⟨0, 1, 1, 1⟩, ⟨1, 1, 1, 1⟩] [1] = [1 / 2] := by
  norm_num [totalMoment, suffix_eq, emi_two, sums, delMoment]

/-! ### Relief by the engines -/

/-- The sums of the arms up to the engine: beyond the engine there is none. -/
theorem delme_sums {loc : ℝ} {a : ℝ} {y : List ℝ} (h : (a :: y).Pairwise (· < ·)) (h0 : a < loc)
    (h1 : loc < (a :: y).getLastD 0) :
    suffix (delme (a :: y) loc) = (a :: y).dropLast.map fun x => max 0 (loc - x) := by
  rw [suffix_eq]
  induction y generalizing a with
  | nil => simp at h1; linarith
  | cons b y ih =>
    have hab : a < b := (List.pairwise_cons.1 h).1 b (by simp)
    have h' := (List.pairwise_cons.1 h).2
    have hmax : max 0 (loc - a) = loc - a := max_eq_right (by linarith)
    by_cases hb : b < loc
    · have hi := ih h' hb (by simpa using h1)
      have k1 : ((b :: y).takeWhile (· < loc)).length ≠ 0 := by simp [hb]
      obtain ⟨m, hm⟩ := Nat.exists_eq_succ_of_ne_zero k1
      have e : delme (a :: b :: y) loc = (b - a) :: delme (b :: y) loc := by
        unfold delme
        have t1 : ((a :: b :: y).takeWhile (· < loc)).length = m + 2 := by
          rw [List.takeWhile_cons, if_pos (by simpa using h0), List.length_cons, hm]
        simp only [t1, hm, Nat.succ_eq_add_one, Nat.add_sub_cancel, show m + 2 - 1 = m + 1 from rfl]
        simp [pairs, hb]
      rw [e, sums, hi, List.dropLast_cons_cons, List.map_cons, hmax]
      congr 1
      have s0 : (delme (b :: y) loc).sum = loc - b := by
        have e1 : ∀ q : List ℝ, q.sum = (sums q).headD 0 := by
          intro q; cases q <;> simp [sums]
        rw [e1, hi]
        rcases y with _ | ⟨c, y⟩
        · simp at h1; linarith
        · simp only [List.dropLast_cons_cons, List.map_cons, List.headD_cons]
          exact max_eq_right (by linarith)
      rw [s0]
      ring
    · have hb' := not_lt.1 hb
      have e : delme (a :: b :: y) loc = (loc - a) :: List.replicate y.length 0 := by
        unfold delme
        have t1 : ((a :: b :: y).takeWhile (· < loc)).length = 1 := by
          rw [List.takeWhile_cons, if_pos (by simpa using h0), List.takeWhile_cons, if_neg (by simpa using hb')]
          rfl
        simp only [t1, Nat.sub_self]
        have z : ∀ (q : List ℝ) (c : ℝ), (c :: q).Pairwise (· < ·) → loc ≤ c →
            pairs (fun a b => (b - a) * (if b < loc then 1 else 0)) (c :: q) = List.replicate q.length (0 : ℝ) := by
          intro q
          induction q with
          | nil => intro c _ _; simp [pairs]
          | cons d q iq =>
            intro c hc hl
            have hcd : c < d := (List.pairwise_cons.1 hc).1 d (by simp)
            have := iq d (List.pairwise_cons.1 hc).2 (hl.trans hcd.le)
            simp only [pairs, List.tail_cons, List.zipWith_cons_cons, List.length_cons, List.replicate_succ] at this ⊢
            rw [this, if_neg (not_lt.2 (hl.trans hcd.le)), mul_zero]
        have := z y b h' hb'
        have c1 : pairs (fun a b => (b - a) * (if b < loc then 1 else 0)) (a :: b :: y)
            = (b - a) * (if b < loc then 1 else 0) :: List.replicate y.length (0 : ℝ) := by
          rw [← this]; simp [pairs]
        rw [c1]
        simp
      have sz : ∀ n, sums (List.replicate n (0 : ℝ)) = List.replicate n 0 := by
        intro n
        induction n with
        | zero => rfl
        | succ n i => rw [List.replicate_succ, sums, i]; simp
      rw [e, sums, sz, List.dropLast_cons_cons, List.map_cons, hmax]
      congr 1
      · simp
      · symm
        rw [List.eq_replicate_iff]
        refine ⟨by simp, fun v hv => ?_⟩
        obtain ⟨x, hx, rfl⟩ := List.mem_map.1 hv
        have hx' := List.dropLast_subset _ hx
        have : b ≤ x := by
          rcases List.mem_cons.1 hx' with rfl | q
          · exact le_rfl
          · exact ((List.pairwise_cons.1 h').1 x q).le
        exact max_eq_left (by linarith)

example : suffix (delme [0, 1, 2, 3] (3 / 2)) = [3 / 2, 1 / 2, 0] := by
  rw [delme_sums (by norm_num) (by norm_num) (by norm_num)]
  norm_num

/-- The bound. -/
theorem bounded_eq (q : List ℝ) : bounded q = max (84 / 100) q.prod := by
  unfold bounded
  split_ifs with h
  · exact (max_eq_left h.le).symm
  · exact (max_eq_right (not_lt.1 h)).symm

/-- The relief is never more than sixteen percent. -/
theorem inertia_ge {F : ℝ → ℝ → ℝ} {e : List (ℕ × ℝ)} {locs : List ℝ} {v : ℝ} (h : inertia F e locs = some v) :
    84 / 100 ≤ v := by
  unfold inertia at h
  obtain ⟨q, -, rfl⟩ := Option.map_eq_some_iff.1 h
  rw [bounded_eq]
  exact le_max_left _ _

/-- The place used for a type is that of its innermost engine, whatever the order in which places are given. -/
theorem firstOf_min {l : List ℝ} {m : ℝ} (h : firstOf l = some m) : m ∈ l ∧ ∀ x ∈ l, m ≤ x := by
  cases l with
  | nil => simp [firstOf] at h
  | cons a l =>
    have h' : l.foldl min a = m := by simpa [firstOf] using h
    clear h
    subst h'
    induction l generalizing a with
    | nil => simp
    | cons b l ih =>
      rw [List.foldl_cons]
      obtain ⟨i1, i2⟩ := ih (min a b)
      constructor
      · rcases List.mem_cons.1 i1 with r | r
        · rw [r]
          rcases min_choice a b with e | e <;> rw [e] <;> simp
        · exact List.mem_cons_of_mem _ (List.mem_cons_of_mem _ r)
      · intro x hx
        have hm := i2 (min a b) (by simp)
        rcases List.mem_cons.1 hx with rfl | hx
        · exact hm.trans (min_le_left _ _)
        · rcases List.mem_cons.1 hx with rfl | hx
          · exact hm.trans (min_le_right _ _)
          · exact i2 x (List.mem_cons_of_mem _ hx)

theorem factors_spec {F : ℝ → ℝ → ℝ} {e : List (ℕ × ℝ)} {locs q : List ℝ} (h : factors F e locs = some q) :
    List.Forall₂ (fun x v => (1 < x.1 ∧ ∃ loc ∈ locs, v = F loc x.2) ∨ (x.1 ≤ 1 ∧ v = 0)) e q := by
  induction e generalizing locs q with
  | nil =>
    obtain rfl : [] = q := by simpa [factors] using h
    exact .nil
  | cons x e ih =>
    obtain ⟨n, pod⟩ := x
    unfold factors at h
    split_ifs at h with hn
    · simp only [Option.bind_eq_bind, Option.bind_eq_some_iff, Option.pure_def, Option.some.injEq] at h
      obtain ⟨loc, h1, q', h2, rfl⟩ := h
      refine .cons (.inl ⟨hn, loc, ?_, rfl⟩) ?_
      · exact List.mem_of_mem_take (firstOf_min h1).1
      · refine (ih h2).imp fun x v hv => ?_
        rcases hv with ⟨a, loc, b, c⟩ | hv
        · exact .inl ⟨a, loc, List.mem_of_mem_drop b, c⟩
        · exact .inr hv
    · simp only [Option.bind_eq_bind, Option.bind_eq_some_iff, Option.pure_def, Option.some.injEq] at h
      obtain ⟨q', h2, rfl⟩ := h
      exact .cons (.inr ⟨not_lt.1 hn, rfl⟩) (ih h2)

/-- Where every type has a pair of engines on the wing and none adds load, the factor is at most one. -/
theorem inertia_le_partial {F : ℝ → ℝ → ℝ} {e : List (ℕ × ℝ)} {locs : List ℝ} {v : ℝ} (h : inertia F e locs = some v)
    (hF : ∀ loc ∈ locs, ∀ x ∈ e, F loc x.2 ∈ Icc (0 : ℝ) 1) : v ≤ 1 := by
  unfold inertia at h
  obtain ⟨q, hq, rfl⟩ := Option.map_eq_some_iff.1 h
  rw [bounded_eq]
  refine max_le (by norm_num) ?_
  have := factors_spec hq
  clear hq
  have key : ∀ (e : List (ℕ × ℝ)) (q : List ℝ), (∀ loc ∈ locs, ∀ x ∈ e, F loc x.2 ∈ Icc (0 : ℝ) 1) →
      List.Forall₂ (fun x v => (1 < x.1 ∧ ∃ loc ∈ locs, v = F loc x.2) ∨ (x.1 ≤ 1 ∧ v = 0)) e q → q.prod ∈ Icc (0 : ℝ) 1 := by
    intro e q hF hq
    induction hq with
    | nil => simp
    | @cons x v e q h1 h2 ih =>
      have ih := ih fun loc hl y hy => hF loc hl y (List.mem_cons_of_mem _ hy)
      have hv : v ∈ Icc (0 : ℝ) 1 := by
        rcases h1 with ⟨-, loc, hl, rfl⟩ | ⟨-, rfl⟩
        · exact hF loc hl x (by simp)
        · simp
      rw [List.prod_cons]
      exact ⟨mul_nonneg hv.1 ih.1, mul_le_one₀ hv.2 ih.1 ih.2⟩
  exact (key e q hF this).2

/-- A type without a pair of engines on the wing gives the full relief of sixteen percent: its factor stays zero.  The
documentation of the component says that there is no relief for one or zero engines. -/
theorem inertia_violated {F : ℝ → ℝ → ℝ} {e : List (ℕ × ℝ)} {locs : List ℝ} {v : ℝ} (h : inertia F e locs = some v)
    (he : ∃ x ∈ e, x.1 ≤ 1) : v = 84 / 100 := by
  unfold inertia at h
  obtain ⟨q, hq, rfl⟩ := Option.map_eq_some_iff.1 h
  have hz : q.prod = 0 := by
    have := factors_spec hq
    clear hq h
    rw [List.prod_eq_zero_iff]
    obtain ⟨x, hx, hn⟩ := he
    induction this with
    | nil => simp at hx
    | cons h1 h2 ih =>
      rcases List.mem_cons.1 hx with rfl | hx
      · rcases h1 with ⟨h, -⟩ | ⟨-, rfl⟩
        · omega
        · simp
      · exact List.mem_cons_of_mem _ (ih hx)
  rw [bounded_eq, hz]
  norm_num

/-- So an aircraft with all its engines at the rear has a lighter wing than one with engines at the wing root. -/
theorem rear_engines_violated (F : ℝ → ℝ → ℝ) (n : ℕ) (hn : n ≤ 1) (pod : ℝ) (locs : List ℝ) :
    inertia F [(n, pod)] locs = some (84 / 100) := by
  have e : factors F [(n, pod)] locs = some [0] := by
    simp [factors, not_lt.2 hn]
  have : inertia F [(n, pod)] locs = some (bounded [0]) := by rw [inertia, e]; rfl
  rw [this, bounded_eq]
  norm_num

/-- The blended wing body without engines on the wing has no relief; one type without still gives all of it. -/
theorem inertiaBWB_cases {F : ℝ → ℝ → ℝ} {e : List (ℕ × ℝ)} {locs : List ℝ} {v : ℝ} (h : inertiaBWB F e locs = some v) :
    ((∀ x ∈ e, x.1 = 0) → v = 1) ∧ ((∃ x ∈ e, 0 < x.1) → (∃ x ∈ e, x.1 ≤ 1) → v = 84 / 100) := by
  unfold inertiaBWB at h
  constructor
  · intro h0
    rw [if_neg] at h
    · simpa using h.symm
    · rw [not_lt, Nat.le_zero, List.sum_eq_zero_iff]
      intro n hn
      obtain ⟨x, hx, rfl⟩ := List.mem_map.1 hn
      exact h0 x hx
  · rintro ⟨x, hx, hp⟩ h1
    rw [if_pos] at h
    · exact inertia_violated h h1
    · exact lt_of_lt_of_le hp (List.le_sum_of_mem (List.mem_map_of_mem hx))

/-- Engines at the root of the wing relieve nothing. -/
theorem typeFactor_root {l : List Node} {csw : List ℝ} {bt gross loc pod : ℝ} (h : loc ≤ (l.map Node.y).headD 0) :
    typeFactor l csw bt gross loc pod = 1 := if_pos h

/-! ### Scaling of the blended wing body -/

/-- The conventional wing scales its chords once… -/
theorem chordScale_once {ar arref : ℝ} (h : 0 < arref) (x : ℝ) : x * chordScale ar arref = x * (arref / ar) := by
  rw [chordScale, if_pos h]

/-- …the blended wing body twice, and thickness as well. -/
theorem chordBWB_violated {span ar arref x : ℝ} (har : 0 < ar) (h : 0 < arref) (hx : x ≤ 5) (hx0 : 0 < x) :
    chordBWB span ar arref x = x * (arref / ar) ^ 2 ∧
      (chordBWB span ar arref x = x * chordScale ar arref ↔ arref = ar) := by
  have hr : 0 < arref / ar := by positivity
  have e : chordBWB span ar arref x = x * (arref / ar) ^ 2 := by
    unfold chordBWB chordMod arScale
    rw [if_neg (not_lt.2 hx), if_neg hr.ne']
    ring
  refine ⟨e, ?_⟩
  rw [e, chordScale_once h]
  constructor
  · intro k
    have k' := mul_left_cancel₀ hx0.ne' k
    have : arref / ar = 1 := by
      have := mul_left_cancel₀ hr.ne' (show arref / ar * (arref / ar) = arref / ar * 1 by linarith [k', sq (arref / ar)])
      exact this
    rwa [div_eq_one_iff_eq har.ne'] at this
  · rintro rfl
    rw [div_self har.ne']
    ring

theorem tcBWB_violated {tc tcref x : ℝ} (h : 0 < tcref) (ht : 0 < tc) (hx : 0 < x) :
    tcBWB tc tcref x = x * (tc / tcref) ^ 2 ∧ (tcBWB tc tcref x = x * tcScale tc tcref ↔ tc = tcref) := by
  have hr : 0 < tc / tcref := by positivity
  have e : tcBWB tc tcref x = x * (tc / tcref) ^ 2 := by
    unfold tcBWB tcScale
    rw [if_pos h]
    ring
  refine ⟨e, ?_⟩
  rw [e, tcScale, if_pos h]
  constructor
  · intro k
    have k' := mul_left_cancel₀ hx.ne' k
    have : tc / tcref = 1 :=
      mul_left_cancel₀ hr.ne' (show tc / tcref * (tc / tcref) = tc / tcref * 1 by linarith [k', sq (tc / tcref)])
    rwa [div_eq_one_iff_eq h.ne'] at this
  · rintro rfl
    rw [div_self h.ne']
    ring

end Verif.WingBend
