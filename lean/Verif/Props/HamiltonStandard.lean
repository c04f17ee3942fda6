import Verif.Model.HamiltonStandard
import Mathlib.Tactic.FieldSimp
import Mathlib.Tactic.Ring
import Mathlib.Tactic.Linarith
import Mathlib.Tactic.NormNum
import Mathlib.Tactic.LinearCombination
import Mathlib.Algebra.Order.Ring.Rat
import Mathlib.Data.Rat.Floor

/-!
# C48, C49: interpolation routines of the propeller code
-/

namespace Verif.HS

variable {α : Type} [Field α] [LinearOrder α] [IsStrictOrderedRing α]

/-- The parabola through three points (Lagrange form). -/
def parab (x0 x1 x2 y0 y1 y2 x : α) : α :=
  y0 * ((x - x1) * (x - x2)) / ((x0 - x1) * (x0 - x2)) + y1 * ((x - x0) * (x - x2)) / ((x1 - x0) * (x1 - x2)) +
    y2 * ((x - x0) * (x - x1)) / ((x2 - x0) * (x2 - x1))

omit [LinearOrder α] [IsStrictOrderedRing α] in
/-- The blended value is a mean of the left and the right parabola. -/
theorem blend_eq (x0 x1 x2 x3 y0 y1 y2 y3 ra x : α) (h01 : x1 - x0 ≠ 0) (h12 : x2 - x1 ≠ 0) (h23 : x3 - x2 ≠ 0)
    (h02 : x2 - x0 ≠ 0) (h13 : x3 - x1 ≠ 0) :
    blend x0 x1 x2 x3 y0 y1 y2 y3 ra x = ra * parab x0 x1 x2 y0 y1 y2 x + (1 - ra) * parab x1 x2 x3 y1 y2 y3 x := by
  have e4 : x1 - x0 + (x2 - x1) = x2 - x0 := by ring
  have e5 : x2 - x1 + (x3 - x2) = x3 - x1 := by ring
  have n1 : x0 - x1 = -(x1 - x0) := by ring
  have n2 : x0 - x2 = -(x2 - x0) := by ring
  have n3 : x1 - x2 = -(x2 - x1) := by ring
  have n4 : x1 - x3 = -(x3 - x1) := by ring
  have n5 : x2 - x3 = -(x3 - x2) := by ring
  simp only [blend, parab, e4, e5, n1, n2, n3, n4, n5]
  field_simp
  ring

omit [LinearOrder α] [IsStrictOrderedRing α] in
theorem parab_quad (x0 x1 x2 a b c x : α) (h01 : x1 - x0 ≠ 0) (h12 : x2 - x1 ≠ 0) (h02 : x2 - x0 ≠ 0) :
    parab x0 x1 x2 (a + b * x0 + c * x0 ^ 2) (a + b * x1 + c * x1 ^ 2) (a + b * x2 + c * x2 ^ 2) x =
      a + b * x + c * x ^ 2 := by
  have n1 : x0 - x1 = -(x1 - x0) := by ring
  have n2 : x0 - x2 = -(x2 - x0) := by ring
  have n3 : x1 - x2 = -(x2 - x1) := by ring
  simp only [parab, n1, n2, n3]
  field_simp
  ring

omit [LinearOrder α] [IsStrictOrderedRing α] in
theorem parab_left (x0 x1 x2 y0 y1 y2 : α) (h01 : x1 - x0 ≠ 0) (h02 : x2 - x0 ≠ 0) :
    parab x0 x1 x2 y0 y1 y2 x0 = y0 := by
  have n1 : x0 - x1 ≠ 0 := by intro h; apply h01; linear_combination -h
  have n2 : x0 - x2 ≠ 0 := by intro h; apply h02; linear_combination -h
  simp only [parab, sub_self, zero_mul, mul_zero, zero_div, add_zero]
  field_simp

omit [LinearOrder α] [IsStrictOrderedRing α] in
theorem parab_mid (x0 x1 x2 y0 y1 y2 : α) (h01 : x1 - x0 ≠ 0) (h12 : x2 - x1 ≠ 0) :
    parab x0 x1 x2 y0 y1 y2 x1 = y1 := by
  have n2 : x1 - x2 ≠ 0 := by intro h; apply h12; linear_combination -h
  simp only [parab, sub_self, zero_mul, mul_zero, zero_div, add_zero, zero_add]
  field_simp

omit [LinearOrder α] [IsStrictOrderedRing α] in
theorem parab_right (x0 x1 x2 y0 y1 y2 : α) (h12 : x2 - x1 ≠ 0) (h02 : x2 - x0 ≠ 0) :
    parab x0 x1 x2 y0 y1 y2 x2 = y2 := by
  simp only [parab, sub_self, zero_mul, mul_zero, zero_div, zero_add]
  field_simp

/-- Strictly increasing abscissae. -/
def Incr (n : ℕ) (xa : ℕ → α) : Prop := ∀ i j, i < j → j < n → xa i < xa j

theorem search_some {n : ℕ} {xa : ℕ → α} {x : α} {i : ℕ} (h : search n xa x = some i) :
    1 ≤ i ∧ i < n ∧ x ≤ xa i ∧ ∀ j, 1 ≤ j → j < i → xa j < x := by
  unfold search at h
  rw [List.find?_range_eq_some] at h
  obtain ⟨h1, h2, h3⟩ := h
  simp only [decide_eq_true_eq, List.mem_range] at h1 h2
  refine ⟨h1.1, h2, h1.2, ?_⟩
  intro j hj hji
  have := h3 j hji
  simp only [Bool.not_eq_true', decide_eq_false_iff_not, not_and, not_le] at this
  exact this hj

theorem search_none {n : ℕ} {xa : ℕ → α} {x : α} (h : search n xa x = none) : ∀ j, 1 ≤ j → j < n → xa j < x := by
  unfold search at h
  rw [List.find?_eq_none] at h
  intro j h1 h2
  have := h j (List.mem_range.2 h2)
  simp only [decide_eq_true_eq, not_and, not_le] at this
  exact this h1

/-- The abscissa interval found by the search. -/
theorem search_inside {n : ℕ} {xa : ℕ → α} (hx : Incr n xa) {x : α} (k : ℕ) (hk : 1 ≤ k) (hkn : k < n)
    (h1 : xa (k - 1) < x) (h2 : x ≤ xa k) : search n xa x = some k := by
  unfold search
  rw [List.find?_range_eq_some]
  refine ⟨by simp [hk, h2], List.mem_range.2 hkn, ?_⟩
  intro j hj
  simp only [Bool.not_eq_true', decide_eq_false_iff_not, not_and, not_le]
  intro _
  rcases Nat.lt_or_ge j (k - 1) with h | h
  · exact lt_trans (hx j (k - 1) h (by omega)) h1
  · have : j = k - 1 := by omega
    rw [this]; exact h1

/-- **C48 (data points).** At every table point the table value is returned and no extrapolation is reported. -/
theorem unint_node (n : ℕ) (xa ya : ℕ → α) (hx : Incr n xa) (i : ℕ) (hi : i < n) : unint n xa ya (xa i) = (ya i, 0) := by
  unfold unint
  rcases Nat.eq_zero_or_pos i with h | h
  · subst h; simp
  · have h0 : xa 0 < xa i := hx 0 i h hi
    rw [if_neg (not_lt.2 h0.le), if_neg h0.ne,
      search_inside hx i h hi (hx (i - 1) i (by omega) hi) le_rfl]
    simp

/-- **C48 (below and above the table).** Outside the table the end value is returned, with flag 1 below and 2 above. -/
theorem unint_outside (n : ℕ) (xa ya : ℕ → α) (hx : Incr n xa) (hn : 1 ≤ n) (x : α) :
    (x < xa 0 → unint n xa ya x = (ya 0, 1)) ∧ (xa (n - 1) < x → unint n xa ya x = (ya (n - 1), 2)) := by
  constructor
  · intro h; simp [unint, h]
  · intro h
    have hle : ∀ j, j < n → xa j < x := by
      intro j hj
      rcases Nat.lt_or_ge j (n - 1) with h' | h'
      · exact lt_trans (hx j (n - 1) h' (by omega)) h
      · have : j = n - 1 := by omega
        rw [this]; exact h
    have h0 := hle 0 (by omega)
    unfold unint
    rw [if_neg (not_lt.2 h0.le), if_neg h0.ne]
    cases hs : search n xa x with
    | none => rfl
    | some i =>
      obtain ⟨_, h2, h3, _⟩ := search_some hs
      exact absurd h3 (not_le.2 (hle i h2))

/-- The parabola through points `m-1`, `m`, `m+1`. -/
def P (xa ya : ℕ → α) (m : ℕ) (x : α) : α :=
  parab (xa (m - 1)) (xa m) (xa (m + 1)) (ya (m - 1)) (ya m) (ya (m + 1)) x

/-- The curve of the interval that ends at point `k`: the parabolas around both ends, weighted linearly, only one in the
first and the last interval. -/
def S (n : ℕ) (xa ya : ℕ → α) (k : ℕ) (x : α) : α :=
  if k = 1 then P xa ya 1 x
  else if k = n - 1 then P xa ya (n - 2) x
  else (xa k - x) / (xa k - xa (k - 1)) * P xa ya (k - 1) x + (1 - (xa k - x) / (xa k - xa (k - 1))) * P xa ya k x

theorem sub_ne {n : ℕ} {xa : ℕ → α} (hx : Incr n xa) {i j : ℕ} (h : i < j) (hj : j < n) : xa j - xa i ≠ 0 :=
  sub_ne_zero.2 (hx i j h hj).ne'

/-- **C48 (between points).** In the interval that ends at point `k` the value is that curve. -/
theorem unint_inside (n : ℕ) (xa ya : ℕ → α) (hx : Incr n xa) (hn : 4 ≤ n) (k : ℕ) (hk : 1 ≤ k) (hkn : k < n) (x : α)
    (h1 : xa (k - 1) < x) (h2 : x < xa k) : unint n xa ya x = (S n xa ya k x, 0) := by
  have h0 : xa 0 < x := by
    rcases Nat.eq_or_lt_of_le hk with h | h
    · subst h; exact h1
    · exact lt_trans (hx 0 (k - 1) (by omega) (by omega)) h1
  unfold unint
  rw [if_neg (not_lt.2 h0.le), if_neg h0.ne, search_inside hx k hk hkn h1 h2.le]
  simp only [if_neg h2.ne']
  congr 1
  unfold pick S
  by_cases hk1 : k = 1
  · simp only [hk1, if_true]
    rw [blend_eq _ _ _ _ _ _ _ _ _ _ (sub_ne hx (by omega) (by omega)) (sub_ne hx (by omega) (by omega))
      (sub_ne hx (by omega) (by omega)) (sub_ne hx (by omega) (by omega)) (sub_ne hx (by omega) (by omega))]
    simp [P]
  · by_cases hkl : k = n - 1
    · simp only [hk1, hkl, if_false, if_true, show n - 1 ≠ 1 by omega]
      rw [blend_eq _ _ _ _ _ _ _ _ _ _ (sub_ne hx (by omega) (by omega)) (sub_ne hx (by omega) (by omega))
        (sub_ne hx (by omega) (by omega)) (sub_ne hx (by omega) (by omega)) (sub_ne hx (by omega) (by omega))]
      simp only [P, zero_mul, zero_add, sub_zero, one_mul, show n - 2 - 1 = n - 4 + 1 by omega,
        show n - 2 + 1 = n - 4 + 3 by omega]
      simp only [show n - 4 + 2 = n - 2 by omega]
    · simp only [hk1, hkl, if_false]
      rw [blend_eq _ _ _ _ _ _ _ _ _ _ (sub_ne hx (by omega) (by omega)) (sub_ne hx (by omega) (by omega))
        (sub_ne hx (by omega) (by omega)) (sub_ne hx (by omega) (by omega)) (sub_ne hx (by omega) (by omega))]
      simp only [P, show k - 2 + 1 = k - 1 by omega, show k - 2 + 2 = k by omega, show k - 2 + 3 = k + 1 by omega,
        show k - 1 - 1 = k - 2 by omega, show k - 1 + 1 = k by omega]

/-- Every argument inside the table is a table point or lies in one interval. -/
theorem locate_interval (n : ℕ) (xa : ℕ → α) (hn : 1 ≤ n) (x : α) (h0 : xa 0 ≤ x) (h1 : x ≤ xa (n - 1)) :
    (∃ i, i < n ∧ x = xa i) ∨ ∃ k, 1 ≤ k ∧ k < n ∧ xa (k - 1) < x ∧ x < xa k := by
  rcases eq_or_lt_of_le h0 with h | h
  · exact Or.inl ⟨0, by omega, h.symm⟩
  cases hs : search n xa x with
  | none =>
    have := search_none hs
    rcases Nat.eq_zero_or_pos (n - 1) with hz | hz
    · rw [hz] at h1; exact absurd h1 (not_le.2 h)
    · exact absurd h1 (not_le.2 (this (n - 1) hz (by omega)))
  | some k =>
    obtain ⟨a, b, c, d⟩ := search_some hs
    rcases eq_or_lt_of_le c with hc | hc
    · exact Or.inl ⟨k, b, hc⟩
    · refine Or.inr ⟨k, a, b, ?_, hc⟩
      rcases Nat.eq_or_lt_of_le a with hk | hk
      · subst hk; exact h
      · exact d (k - 1) (by omega) (by omega)

/-- **C48 (exactness).** If the data lie on a parabola, the interpolation reproduces it on the whole range of the table. -/
theorem unint_exact (n : ℕ) (xa ya : ℕ → α) (hx : Incr n xa) (hn : 4 ≤ n) (a b c : α)
    (hy : ∀ i, i < n → ya i = a + b * xa i + c * xa i ^ 2) (x : α) (h0 : xa 0 ≤ x) (h1 : x ≤ xa (n - 1)) :
    unint n xa ya x = (a + b * x + c * x ^ 2, 0) := by
  have hP : ∀ m, 1 ≤ m → m + 1 < n → P xa ya m x = a + b * x + c * x ^ 2 := by
    intro m hm hmn
    unfold P
    rw [hy _ (show m - 1 < n by omega), hy _ (show m < n by omega), hy _ hmn]
    exact parab_quad _ _ _ _ _ _ _ (sub_ne hx (by omega) (by omega)) (sub_ne hx (by omega) (by omega))
      (sub_ne hx (by omega) (by omega))
  rcases locate_interval n xa (by omega) x h0 h1 with ⟨i, hi, rfl⟩ | ⟨k, hk, hkn, ha, hb⟩
  · rw [unint_node n xa ya hx i hi, hy i hi]
  · rw [unint_inside n xa ya hx hn k hk hkn x ha hb]
    congr 1
    unfold S
    split_ifs with c1 c2
    · exact hP 1 le_rfl (by omega)
    · exact hP (n - 2) (by omega) (by omega)
    · rw [hP (k - 1) (by omega) (by omega), hP k hk (by omega)]; ring

/-- **C48 (flag).** The flag is 0 exactly inside the table. -/
theorem unint_flag (n : ℕ) (xa ya : ℕ → α) (hx : Incr n xa) (hn : 4 ≤ n) (x : α) :
    (unint n xa ya x).2 = 0 ↔ xa 0 ≤ x ∧ x ≤ xa (n - 1) := by
  constructor
  · intro h
    constructor
    · by_contra hlt
      rw [(unint_outside n xa ya hx (by omega) x).1 (not_le.1 hlt)] at h
      cases h
    · by_contra hlt
      rw [(unint_outside n xa ya hx (by omega) x).2 (not_le.1 hlt)] at h
      cases h
  · rintro ⟨h0, h1⟩
    rcases locate_interval n xa (by omega) x h0 h1 with ⟨i, hi, rfl⟩ | ⟨k, hk, hkn, ha, hb⟩
    · rw [unint_node n xa ya hx i hi]
    · rw [unint_inside n xa ya hx hn k hk hkn x ha hb]

/-- The curve of an interval meets the data at both ends. -/
theorem S_ends (n : ℕ) (xa ya : ℕ → α) (hx : Incr n xa) (hn : 4 ≤ n) (k : ℕ) (hk : 1 ≤ k) (hkn : k < n) :
    S n xa ya k (xa (k - 1)) = ya (k - 1) ∧ S n xa ya k (xa k) = ya k := by
  have hne : xa k - xa (k - 1) ≠ 0 := sub_ne hx (by omega) hkn
  unfold S
  split_ifs with c1 c2
  · subst c1
    exact ⟨parab_left _ _ _ _ _ _ (sub_ne hx (by omega) (by omega)) (sub_ne hx (by omega) (by omega)),
      parab_mid _ _ _ _ _ _ (sub_ne hx (by omega) (by omega)) (sub_ne hx (by omega) (by omega))⟩
  · subst c2
    have e1 : n - 1 - 1 = n - 2 := by omega
    have e2 : n - 2 + 1 = n - 1 := by omega
    unfold P
    rw [e1, e2]
    exact ⟨parab_mid _ _ _ _ _ _ (sub_ne hx (by omega) (by omega)) (sub_ne hx (by omega) (by omega)),
      parab_right _ _ _ _ _ _ (sub_ne hx (by omega) (by omega)) (sub_ne hx (by omega) (by omega))⟩
  · constructor
    · rw [div_self hne, one_mul, sub_self, zero_mul, add_zero]
      exact parab_mid _ _ _ _ _ _ (sub_ne hx (by omega) (by omega)) (sub_ne hx (by omega) (by omega))
    · rw [sub_self, zero_div, zero_mul, sub_zero, one_mul, zero_add]
      exact parab_mid _ _ _ _ _ _ (sub_ne hx (by omega) (by omega)) (sub_ne hx (by omega) (by omega))

/-- On the closed interval. -/
theorem unint_closed (n : ℕ) (xa ya : ℕ → α) (hx : Incr n xa) (hn : 4 ≤ n) (k : ℕ) (hk : 1 ≤ k) (hkn : k < n) (x : α)
    (h1 : xa (k - 1) ≤ x) (h2 : x ≤ xa k) : unint n xa ya x = (S n xa ya k x, 0) := by
  obtain ⟨e1, e2⟩ := S_ends n xa ya hx hn k hk hkn
  rcases eq_or_lt_of_le h1 with h | h
  · subst h; rw [unint_node n xa ya hx _ (by omega), e1]
  rcases eq_or_lt_of_le h2 with h' | h'
  · subst h'; rw [unint_node n xa ya hx _ hkn, e2]
  · exact unint_inside n xa ya hx hn k hk hkn x h h'

/-! ## C49: `_biquad` -/

theorem searchT_eq {T : ℕ → α} {j1 n : ℕ} (hn : 1 ≤ n) {x : α} :
    searchT T j1 (j1 + n - 1) x = ((List.range n).find? (fun i => decide (x ≤ T (j1 + i)))).map (j1 + ·) := by
  unfold searchT
  have e : j1 + n - 1 + 1 = j1 + n := by omega
  rw [e]
  cases h : (List.range n).find? (fun i => decide (x ≤ T (j1 + i))) with
  | none =>
    rw [List.find?_eq_none] at h
    simp only [Option.map_none, List.find?_eq_none, List.mem_range, decide_eq_true_eq, not_and]
    intro j hj hj1
    have := h (j - j1) (List.mem_range.2 (by omega))
    rw [show j1 + (j - j1) = j by omega] at this
    simpa using this
  | some i =>
    rw [List.find?_range_eq_some] at h
    obtain ⟨h1, h2, h3⟩ := h
    simp only [Option.map_some, List.find?_range_eq_some]
    refine ⟨by simpa using h1, by simp at h2 ⊢; omega, ?_⟩
    intro j hj
    simp only [Bool.not_eq_true', decide_eq_false_iff_not, not_and]
    intro hj1
    have := h3 (j - j1) (by omega)
    rw [show j1 + (j - j1) = j by omega] at this
    simpa using this

/-- The weighted sum of `_biquad` over four values. -/
def wsum (w : α × α × α × α) (y0 y1 y2 y3 : α) : α := w.1 * y0 + w.2.1 * y1 + w.2.2.1 * y2 + w.2.2.2 * y3

omit [LinearOrder α] [IsStrictOrderedRing α] in
theorem wsum_blend (x0 x1 x2 x3 ra x y0 y1 y2 y3 : α) :
    wsum (weights x0 x1 x2 x3 ra x) y0 y1 y2 y3 = blend x0 x1 x2 x3 y0 y1 y2 y3 ra x := by
  simp only [wsum, weights, blend]
  generalize x1 - x0 = p1
  generalize x2 - x1 = p2
  generalize x3 - x2 = p3
  generalize p1 + p2 = p4
  generalize p2 + p3 = p5
  ring

/-- **C49 (one variable).** The search and weights of `_biquad` on entries `j1 … j1+n-1` give the value and flag of `_unint`
for every column of values. -/
theorem locate_unint (T : ℕ → α) (j1 n : ℕ) (hn : 4 ≤ n) (hx : Incr n (fun i => T (j1 + i))) (x : α) (v : ℕ → α) :
    let l := locate T j1 (j1 + n - 1) x
    let j := l.2.2.1
    j1 ≤ j ∧ j + 3 < j1 + n ∧
    wsum (weights (T j) (T (j + 1)) (T (j + 2)) (T (j + 3)) l.2.2.2 l.1) (v (j - j1)) (v (j - j1 + 1)) (v (j - j1 + 2))
      (v (j - j1 + 3)) = (unint n (fun i => T (j1 + i)) v x).1 ∧
    l.2.1 = (unint n (fun i => T (j1 + i)) v x).2 := by
  intro l j
  have hne : ∀ {a b : ℕ}, a < b → b < n → T (j1 + b) - T (j1 + a) ≠ 0 := fun h h' => sub_ne hx h h'
  -- reduce the sum to a combination of parabolas
  have key : ∀ (s : ℕ) (ra x' : α), s + 3 < n →
      wsum (weights (T (j1 + s)) (T (j1 + s + 1)) (T (j1 + s + 2)) (T (j1 + s + 3)) ra x') (v s) (v (s + 1)) (v (s + 2))
        (v (s + 3)) = ra * P (fun i => T (j1 + i)) v (s + 1) x' + (1 - ra) * P (fun i => T (j1 + i)) v (s + 2) x' := by
    intro s ra x' hs
    have a1 : T (j1 + s + 1) - T (j1 + s) ≠ 0 := by simpa [Nat.add_assoc] using hne (a := s) (b := s + 1) (by omega) (by omega)
    have a2 : T (j1 + s + 2) - T (j1 + s + 1) ≠ 0 := by simpa [Nat.add_assoc] using hne (a := s + 1) (b := s + 2) (by omega) (by omega)
    have a3 : T (j1 + s + 3) - T (j1 + s + 2) ≠ 0 := by simpa [Nat.add_assoc] using hne (a := s + 2) (b := s + 3) (by omega) (by omega)
    have a4 : T (j1 + s + 2) - T (j1 + s) ≠ 0 := by simpa [Nat.add_assoc] using hne (a := s) (b := s + 2) (by omega) (by omega)
    have a5 : T (j1 + s + 3) - T (j1 + s + 1) ≠ 0 := by simpa [Nat.add_assoc] using hne (a := s + 1) (b := s + 3) (by omega) (by omega)
    rw [wsum_blend, blend_eq _ _ _ _ _ _ _ _ _ _ a1 a2 a3 a4 a5]
    simp only [P, Nat.add_sub_cancel, show s + 2 - 1 = s + 1 by omega, Nat.add_assoc, Nat.reduceAdd]
  have hS := searchT_eq (T := T) (j1 := j1) (n := n) (by omega) (x := x)
  cases hf : (List.range n).find? (fun i => decide (x ≤ T (j1 + i))) with
  | none =>
    rw [hf, Option.map_none] at hS
    have hl : l = (T (j1 + n - 1), 2, j1 + n - 1 - 3, 0) := by simp only [l, locate, hS]
    have hj : j = j1 + (n - 4) := by simp only [j, hl]; omega
    have hall : ∀ i, i < n → T (j1 + i) < x := by
      intro i hi
      have := List.find?_eq_none.1 hf i (List.mem_range.2 hi)
      simpa using this
    have hout := (unint_outside n (fun i => T (j1 + i)) v hx (by omega) x).2 (hall (n - 1) (by omega))
    refine ⟨by omega, by omega, ?_, by rw [hl, hout]⟩
    rw [hout, hj, hl]
    simp only [show j1 + (n - 4) - j1 = n - 4 by omega]
    rw [key (n - 4) 0 _ (by omega)]
    simp only [zero_mul, zero_add, sub_zero, one_mul, P, show n - 4 + 2 = n - 2 by omega,
      show n - 2 - 1 = n - 3 by omega, show n - 2 + 1 = n - 1 by omega, show j1 + n - 1 = j1 + (n - 1) by omega]
    exact parab_right _ _ _ _ _ _ (hne (by omega) (by omega)) (hne (by omega) (by omega))
  | some i =>
    rw [hf, Option.map_some] at hS
    rw [List.find?_range_eq_some] at hf
    obtain ⟨hf1, hf2, hf3⟩ := hf
    simp only [decide_eq_true_eq, List.mem_range] at hf1 hf2
    have hbelow : ∀ m, m < i → T (j1 + m) < x := by
      intro m hm; simpa using hf3 m hm
    by_cases hi0 : i = 0
    · subst hi0
      by_cases heq : T j1 = x
      · have hl : l = (x, 0, j1, 1) := by simp [l, locate, hS, heq]
        have hj : j = j1 + 0 := by simp only [j, hl]; omega
        have hu := unint_node n (fun i => T (j1 + i)) v hx 0 (by omega)
        simp only [Nat.add_zero, heq] at hu
        refine ⟨by omega, by omega, ?_, by rw [hl, hu]⟩
        rw [hu, hj, hl]
        simp only [show j1 + 0 - j1 = 0 by omega]
        rw [key 0 1 _ (by omega)]
        simp only [one_mul, sub_self, zero_mul, add_zero, P, Nat.zero_add, Nat.sub_self]
        rw [← heq]
        exact parab_left _ _ _ _ _ _ (by simpa using hne (a := 0) (b := 1) (by omega) (by omega))
          (by simpa using hne (a := 0) (b := 2) (by omega) (by omega))
      · have hl : l = (T j1, 1, j1, 1) := by simp [l, locate, hS, heq]
        have hj : j = j1 + 0 := by simp only [j, hl]; omega
        have hlt : x < T (j1 + 0) := lt_of_le_of_ne hf1 (by simpa using Ne.symm heq)
        have hu := (unint_outside n (fun i => T (j1 + i)) v hx (by omega) x).1 hlt
        refine ⟨by omega, by omega, ?_, by rw [hl, hu]⟩
        rw [hu, hj, hl]
        simp only [show j1 + 0 - j1 = 0 by omega]
        rw [key 0 1 _ (by omega)]
        simp only [one_mul, sub_self, zero_mul, add_zero, P, Nat.zero_add, Nat.sub_self]
        exact parab_left _ _ _ _ _ _ (by simpa using hne (a := 0) (b := 1) (by omega) (by omega))
          (by simpa using hne (a := 0) (b := 2) (by omega) (by omega))
    · have h0x : T (j1 + (i - 1)) < x := hbelow (i - 1) (by omega)
      have hu := unint_closed n (fun i => T (j1 + i)) v hx hn i (by omega) hf2 x h0x.le hf1
      by_cases hi1 : i = 1
      · subst hi1
        have hl : l = (x, 0, j1, 1) := by simp [l, locate, hS]
        have hj : j = j1 + 0 := by simp only [j, hl]; omega
        refine ⟨by omega, by omega, ?_, by rw [hl, hu]⟩
        rw [hu, hj, hl]
        simp only [show j1 + 0 - j1 = 0 by omega]
        rw [key 0 1 _ (by omega)]
        simp [S]
      · by_cases hil : i = n - 1
        · have e : j1 + i = j1 + n - 1 := by omega
          have hl : l = (x, 0, j1 + n - 1 - 3, 0) := by
            simp only [l, locate, hS]
            rw [if_neg (by omega : ¬ j1 + i < j1 + 1), if_neg (by omega : ¬ j1 + i ≤ j1 + 1), if_pos e]
          have hj : j = j1 + (n - 4) := by simp only [j, hl]; omega
          refine ⟨by omega, by omega, ?_, by rw [hl, hu]⟩
          rw [hu, hj, hl]
          simp only [show j1 + (n - 4) - j1 = n - 4 by omega]
          rw [key (n - 4) 0 _ (by omega)]
          simp only [zero_mul, zero_add, sub_zero, one_mul, S, if_neg hi1, if_pos hil, show n - 4 + 2 = n - 2 by omega]
        · have hl : l = (x, 0, j1 + i - 2, (T (j1 + i) - x) / (T (j1 + i) - T (j1 + i - 1))) := by
            simp only [l, locate, hS]
            rw [if_neg (by omega : ¬ j1 + i < j1 + 1), if_neg (by omega : ¬ j1 + i ≤ j1 + 1),
              if_neg (by omega : ¬ j1 + i = j1 + n - 1)]
          have hj : j = j1 + (i - 2) := by simp only [j, hl]; omega
          refine ⟨by omega, by omega, ?_, by rw [hl, hu]⟩
          rw [hu, hj, hl]
          simp only [show j1 + (i - 2) - j1 = i - 2 by omega]
          rw [key (i - 2) _ _ (by omega)]
          simp only [S, if_neg hi1, if_neg hil, show i - 2 + 1 = i - 1 by omega, show i - 2 + 2 = i by omega,
            show j1 + i - 1 = j1 + (i - 1) by omega]

/-- **C49 (table layout).** For a table of `nx` abscissae, `ny` ordinates and the values row by row, `_biquad` is `_unint` in the
second variable applied to `_unint` in the first; the flag is `flag_x + 3 flag_y`. -/
theorem biquad_eq (T : ℕ → α) (i nx ny : ℕ) (hnx : 4 ≤ nx) (hny : 4 ≤ ny)
    (hX : Incr nx (fun l => T (i + 2 + l))) (hY : Incr ny (fun m => T (i + 2 + nx + m))) (x y : α) :
    (biquad T i nx ny x y).1 =
      (unint ny (fun m => T (i + 2 + nx + m))
        (fun m => (unint nx (fun l => T (i + 2 + l)) (fun l => T (i + 2 + nx + ny + l * ny + m)) x).1) y).1 ∧
    (biquad T i nx ny x y).2 =
      (unint nx (fun l => T (i + 2 + l)) (fun _ => 0) x).2 + 3 * (unint ny (fun m => T (i + 2 + nx + m)) (fun _ => 0) y).2 := by
  have ex : i + 2 + nx - 1 + 1 = i + 2 + nx := by omega
  have h0x := locate_unint T (i + 2) nx hnx hX x (fun _ => 0)
  have h0y := locate_unint T (i + 2 + nx) ny hny hY y (fun _ => 0)
  have hcol := fun m : ℕ => (locate_unint T (i + 2) nx hnx hX x (fun l => T (i + 2 + nx + ny + l * ny + m))).2.2.1
  have hrow := (locate_unint T (i + 2 + nx) ny hny hY y
    (fun m => (unint nx (fun l => T (i + 2 + l)) (fun l => T (i + 2 + nx + ny + l * ny + m)) x).1)).2.2.1
  have hny0 : ny ≠ 0 := by omega
  simp only at h0x h0y hcol hrow
  simp only [biquad, hny0, if_false, ex]
  generalize locate T (i + 2) (i + 2 + nx - 1) x = lx at *
  generalize locate T (i + 2 + nx) (i + 2 + nx + ny - 1) y = ly at *
  obtain ⟨a1, a2, -, a4⟩ := h0x
  obtain ⟨b1, b2, -, b4⟩ := h0y
  refine ⟨?_, by rw [a4, b4]⟩
  rw [← hrow]
  simp only [wsum]
  have hbase : i + 2 + nx + ny - 1 + 1 = i + 2 + nx + ny := by omega
  have hc : ∀ m, m < 4 → (unint nx (fun l => T (i + 2 + l))
        (fun l => T (i + 2 + nx + ny + l * ny + (ly.2.2.1 - (i + 2 + nx) + m))) x).1 =
      (let cx := weights (T lx.2.2.1) (T (lx.2.2.1 + 1)) (T (lx.2.2.1 + 2)) (T (lx.2.2.1 + 3)) lx.2.2.2 lx.1
       let jy := i + 2 + nx + ny + (lx.2.2.1 - i - 2) * ny + (ly.2.2.1 - (i + 2 + nx))
       cx.1 * T (jy + m) + cx.2.1 * T (jy + m + ny) + cx.2.2.1 * T (jy + m + 2 * ny) + cx.2.2.2 * T (jy + m + 3 * ny)) := by
    intro m _
    rw [← hcol]
    simp only [wsum]
    have e : ∀ k, i + 2 + nx + ny + (lx.2.2.1 - (i + 2) + k) * ny + (ly.2.2.1 - (i + 2 + nx) + m) =
        i + 2 + nx + ny + (lx.2.2.1 - i - 2) * ny + (ly.2.2.1 - (i + 2 + nx)) + m + k * ny := by
      intro k
      rw [show lx.2.2.1 - (i + 2) = lx.2.2.1 - i - 2 by omega]
      ring
    have e0 := e 0
    simp only [Nat.add_zero, Nat.zero_mul] at e0
    rw [e0, e 1, e 2, e 3, Nat.one_mul]
  rw [show ly.2.2.1 - (i + 2 + nx) = ly.2.2.1 - (i + 2 + nx) + 0 from rfl, hc 0 (by omega), hc 1 (by omega), hc 2 (by omega),
    hc 3 (by omega)]
  simp only [hbase, Nat.add_zero]

/-- **C49 (table without second variable).** With `ny = 0` the values follow the abscissae and `_biquad` is `_unint`. -/
theorem biquad_univariate (T : ℕ → α) (i nx : ℕ) (hnx : 4 ≤ nx) (hX : Incr nx (fun l => T (i + 2 + l))) (x y : α) :
    biquad T i nx 0 x y = unint nx (fun l => T (i + 2 + l)) (fun l => T (i + 2 + nx + l)) x := by
  have h := locate_unint T (i + 2) nx hnx hX x (fun l => T (i + 2 + nx + l))
  simp only at h
  simp only [biquad, if_true]
  generalize locate T (i + 2) (i + 2 + nx - 1) x = lx at *
  obtain ⟨a1, a2, a3, a4⟩ := h
  apply Prod.ext
  · rw [← a3]
    have e : ∀ k, i + 2 + nx + (lx.2.2.1 - (i + 2) + k) = lx.2.2.1 + nx + k := by intro k; omega
    have e0 := e 0
    simp only [Nat.add_zero] at e0
    simp only [wsum, e, e0]
  · exact a4

/-- **C49 (table entries).** At a grid point the tabulated value is returned. -/
theorem biquad_node (T : ℕ → α) (i nx ny : ℕ) (hnx : 4 ≤ nx) (hny : 4 ≤ ny)
    (hX : Incr nx (fun l => T (i + 2 + l))) (hY : Incr ny (fun m => T (i + 2 + nx + m))) (l m : ℕ) (hl : l < nx) (hm : m < ny) :
    biquad T i nx ny (T (i + 2 + l)) (T (i + 2 + nx + m)) = (T (i + 2 + nx + ny + l * ny + m), 0) := by
  obtain ⟨h1, h2⟩ := biquad_eq T i nx ny hnx hny hX hY (T (i + 2 + l)) (T (i + 2 + nx + m))
  have hx : ∀ v, unint nx (fun l => T (i + 2 + l)) v (T (i + 2 + l)) = (v l, 0) := fun v =>
    unint_node nx (fun l => T (i + 2 + l)) v hX l hl
  have hy : ∀ v, unint ny (fun m => T (i + 2 + nx + m)) v (T (i + 2 + nx + m)) = (v m, 0) := fun v =>
    unint_node ny (fun m => T (i + 2 + nx + m)) v hY m hm
  apply Prod.ext
  · rw [h1, hy, hx]
  · simp only [h2, hx, hy, Nat.mul_zero, Nat.add_zero]

/-! ## C50: input checks and the thrust coefficient iteration -/

theorem anyNum_nonpos (v : List α) : anyNum v ≤ 0 ↔ ∀ t ∈ v, t = 0 := by
  unfold anyNum
  split
  · rename_i h
    simp only [List.any_eq_true, decide_eq_true_eq] at h
    obtain ⟨t, ht, hne⟩ := h
    constructor
    · intro h1; exact absurd h1 (not_le.2 one_pos)
    · intro h1; exact absurd (h1 t ht) hne
  · rename_i h
    simp only [List.any_eq_true, decide_eq_true_eq, not_exists, not_and, not_not] at h
    exact ⟨fun _ => h, fun _ => le_rfl⟩

/-- **C50 (what the checks do).** An accepted input has a positive diameter and at least one nonzero tip speed, speed of sound and
density. Nothing else is checked. -/
theorem preChecks_none_iff (diam : α) (tip sos dens shp : List α) :
    preChecks diam tip sos dens shp = none ↔
      0 < diam ∧ (∃ t ∈ tip, t ≠ 0) ∧ (∃ t ∈ sos, t ≠ 0) ∧ (∃ t ∈ dens, t ≠ 0) := by
  have hneg : ¬ anyNum shp < 0 := by
    unfold anyNum; split
    · exact not_lt.2 zero_le_one
    · exact lt_irrefl _
  have hex : ∀ v : List α, ¬ anyNum v ≤ 0 ↔ ∃ t ∈ v, t ≠ 0 := by
    intro v; rw [anyNum_nonpos]; push Not; rfl
  unfold preChecks
  rw [← hex tip, ← hex sos, ← hex dens, ← not_le (a := diam)]
  by_cases h1 : diam ≤ 0
  · simp [h1]
  · by_cases h2 : anyNum tip ≤ 0
    · simp [h1, h2]
    · by_cases h3 : anyNum sos ≤ 0
      · simp [h1, h2, h3]
      · by_cases h4 : anyNum dens ≤ 0
        · simp [h1, h2, h3, h4]
        · simp [h1, h2, h3, h4, hneg]

/-- **C50 violated (checks).** Negative tip speed, speed of sound, density and shaft power are accepted although the messages
demand positive values: `any(v) <= 0` compares a truth value. -/
theorem preChecks_violated : preChecks (1 : ℚ) [-1, 0] [-1] [-1] [-1] = none := by
  rw [preChecks_none_iff]; norm_num

/-- **C50 (partial).** Zero arrays are rejected. -/
theorem preChecks_zero_partial (diam : α) (tip sos dens shp : List α) (h : ∀ t ∈ tip, t = 0) :
    preChecks diam tip sos dens shp ≠ none := by
  rw [Ne, preChecks_none_iff]
  rintro ⟨_, ⟨t, ht, hne⟩, _⟩
  exact hne (h t ht)

/-- **C50 (accepted coefficient).** Whatever the adjustment function, a coefficient returned by the iteration meets the tolerance of
0.1 percent. -/
theorem secant_found (f : α → α) (target : α) (k : ℕ) (prev : Option (α × α)) (cur next ct : α)
    (h : secant f target k prev cur next = .found ct) : target ≠ 0 ∧ |f ct| < 1 / 1000 * |target| := by
  induction k generalizing prev cur next with
  | zero => simp [secant] at h
  | succ k ih =>
    simp only [secant] at h
    split at h
    · cases h
    · rename_i hne
      split at h
      · rename_i hlt
        cases h
        refine ⟨hne, ?_⟩
        rw [abs_div, div_lt_iff₀ (abs_pos.2 hne)] at hlt
        exact hlt
      · split at h
        · exact ih _ _ _ h
        · split at h
          · cases h
          · split at h
            · cases h
            · exact ih _ _ _ h

/-- All iterates kept are positive. -/
theorem secant_pos (f : α → α) (target : α) (k : ℕ) (prev : Option (α × α)) (cur next ct : α) (hc : 0 < cur) (hn : 0 < next)
    (h : secant f target k prev cur next = .found ct) : 0 < ct := by
  induction k generalizing prev cur next with
  | zero => simp [secant] at h
  | succ k ih =>
    simp only [secant] at h
    split at h
    · cases h
    · split at h
      · cases h; exact hc
      · split at h
        · exact ih _ _ _ hn hn h
        · split at h
          · cases h
          · split at h
            · cases h
            · rename_i hp
              exact ih _ _ _ (not_le.1 hp) (not_le.1 hp) h

/-- **C50 (iteration).** The thrust coefficient found is positive and meets the tolerance. -/
theorem findCt_found (f : α → α) (target ct : α) (h : findCt f target = .found ct) :
    0 < ct ∧ |f ct| < 1 / 1000 * |target| :=
  ⟨secant_pos f target 10 none _ _ ct (by norm_num) (by norm_num) h, (secant_found f target 10 none _ _ ct h).2⟩

/-- **C50 (affine adjustment).** If the adjusted coefficient is an affine increasing function, the iteration never fails to converge: it
returns a coefficient within the tolerance, or zero when the exact solution is not positive. -/
theorem findCt_affine (m c target : α) (hm : 0 < m) (ht : target ≠ 0) :
    (∃ ct, findCt (fun x => m * x + c - target) target = .found ct) ∨
      (findCt (fun x => m * x + c - target) target = .zero (2 / 10) ∧ (target - c) / m ≤ 0) := by
  set f : α → α := fun x => m * x + c - target with hf
  have hroot : f ((target - c) / m) = 0 := by simp only [hf]; field_simp; ring
  by_cases h1 : |f (1 / 10) / target| < 1 / 1000
  · left; exact ⟨1 / 10, by simp only [findCt, secant, ht, h1, if_true, if_false]⟩
  by_cases h2 : |f (2 / 10) / target| < 1 / 1000
  · left; exact ⟨2 / 10, by simp only [findCt, secant, ht, h1, h2, if_true, if_false]⟩
  have hd : f (2 / 10) - f (1 / 10) = m / 10 := by simp only [hf]; ring
  have hd0 : f (2 / 10) - f (1 / 10) ≠ 0 := by rw [hd]; positivity
  have hnew : -f (1 / 10) * (2 / 10 - 1 / 10) / (f (2 / 10) - f (1 / 10)) + 1 / 10 = (target - c) / m := by
    rw [hd]; simp only [hf]; field_simp; ring
  have hr0 : |f ((target - c) / m) / target| < 1 / 1000 := by rw [hroot]; norm_num
  by_cases h3 : (target - c) / m ≤ 0
  · right
    refine ⟨?_, h3⟩
    simp only [findCt, secant, ht, h1, h2, if_false, hd0, hnew, h3, if_true]
  · left
    refine ⟨(target - c) / m, ?_⟩
    simp only [findCt, secant, ht, h1, h2, if_false, hd0, hnew, h3, hr0, if_true]

/-- **C50 (giving up).** Convergence is not guaranteed even for monotone residuals: if the residual halves every tenth the ten passes
end without result, which is the `ValueError` of the code. -/
theorem findCt_gives_up : findCt (fun x : ℚ => (1 / 2) ^ (⌊10 * x⌋₊ - 1)) 1 = .notConverged := by decide +kernel

example : Incr 6 (fun i => (([80, 100, 125, 150, 175, 200] : List ℚ).getD i 0)) := by
  intro i j hij hj
  have : ∀ j < 6, ∀ i < j, (([80, 100, 125, 150, 175, 200] : List ℚ).getD i 0) < (([80, 100, 125, 150, 175, 200] : List ℚ).getD j 0) := by
    decide +kernel
  exact this j hj i hij

example : findCt (fun x : ℚ => 2 * x + 0 - 1) 1 = .found (1 / 2) := by decide +kernel

end Verif.HS
