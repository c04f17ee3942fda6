import Verif.Model.FlightIdle
import Mathlib.Tactic.SplitIfs
import Mathlib.Tactic.Linarith
import Mathlib.Tactic.FieldSimp
import Mathlib.Tactic.Ring
import Mathlib.Tactic.NormNum

/-! # C37: generated flight idle points -/

namespace Verif

/-- **C37 (limits).** Every dependent variable of a generated idle point lies between the user's two fractions of the
last entry of the packed slice, provided that entry is not negative and the fractions are ordered (which
`_preprocess_inputs` enforces). -/
theorem clampIdle_bounds (lo hi v : ℚ) (ys : List ℚ) (h : lo ≤ hi) (hl : 0 ≤ ys.getLastD 0) :
    ys.getLastD 0 * lo ≤ clampIdle lo hi ys v ∧ clampIdle lo hi ys v ≤ ys.getLastD 0 * hi ∧
    (ys.getLastD 0 * lo ≤ v → v ≤ ys.getLastD 0 * hi → clampIdle lo hi ys v = v) := by
  have := mul_le_mul_of_nonneg_left h hl
  unfold clampIdle
  simp only
  split_ifs with h1 h2
  · exact ⟨le_rfl, this, fun a _ => absurd a (not_le.2 h1)⟩
  · exact ⟨this, le_rfl, fun _ b => absurd b (not_le.2 h2)⟩
  · exact ⟨not_lt.1 h1, not_lt.1 h2, fun _ _ => rfl⟩

theorem clampIdle_padded (lo hi v : ℚ) (ys : List ℚ) (h : ys.getLastD 0 = 0) : clampIdle lo hi ys v = 0 := by
  unfold clampIdle
  simp only [h, zero_mul]
  split_ifs with h1 h2
  · rfl
  · rfl
  · exact le_antisymm (not_lt.1 h2) (not_lt.1 h1)

/-- **C37 (extrapolation).** The extrapolated value lies on the straight line through the two lowest points of the
variable at the given relative position. -/
theorem extrapolate_line (term : ℚ) (y0 y1 : ℚ) (ys : List ℚ) :
    extrapolate term (y0 :: y1 :: ys) = y0 + (y1 - y0) * term := by
  unfold extrapolate
  simp only [List.getD_cons_zero, List.getD_cons_succ]
  split_ifs with h
  · rw [h.1, h.2]; ring
  · rfl

/-- **C37 (idle thrust, partial).** With one directly computed variable and more than two points: the idle value of
that variable is the user's fraction of the entry `n - 1` (`n = data_indices`), and an unclamped dependent variable is
the linear extrapolation of its two lowest points to that idle value. -/
theorem idlePoint_linear_partial (fr lo hi t0 t1 y0 y1 : ℚ) (n : ℕ) (hn : 2 ≤ n) (ts ys : List ℚ)
    (h0 : thrustTol < t0) (hd : t0 ≠ t1) (r : IdlePt)
    (h : idlePoint fr lo hi n [t0 :: t1 :: ts] [y0 :: y1 :: ys] = .ok (some r)) :
    ∃ v x, r = ⟨[v], [clampIdle lo hi (y0 :: y1 :: ys) x]⟩ ∧ v = (t0 :: t1 :: ts).getD (n - 1) 0 * fr ∧
      (x - y0) * (t1 - t0) = (y1 - y0) * (v - t0) := by
  have hden : t1 - t0 ≠ 0 := sub_ne_zero.2 hd.symm
  unfold idlePoint at h
  rw [if_neg, if_neg (by omega)] at h
  · simp only [idleDirect, List.getD_cons_zero, List.getD_cons_succ, if_neg hden, bind, Except.bind, List.map_cons,
      List.map_nil, extrapolate_line, Except.ok.injEq, Option.some.injEq] at h
    refine ⟨_, _, h.symm, rfl, ?_⟩
    field_simp
    ring
  · have : ¬ t0 ≤ thrustTol := not_le.2 h0
    simp only [List.any_cons, List.any_nil, List.getD_cons_zero, Bool.or_false, decide_eq_true_eq]
    rintro (h | h)
    · omega
    · exact this h

example : idlePoint (8/100) (8/100) 1 3 [[1000, 2000, 4000, 6000]] [[500, 900, 1600, 2500]] =
    .ok (some ⟨[320], [228]⟩) := by decide +kernel

/-- **C37 (negation: not the maximum).** The idle thrust is documented as a fraction of the maximum thrust of the
flight condition.  The entry used is the last but one: with four points (`data_indices = 3`) and thrusts up to 6000 the
value at 4000 is used. -/
theorem idlePoint_not_max_violated :
    idlePoint (8/100) 0 1 3 [[1000, 2000, 4000, 6000]] [] = .ok (some ⟨[320], []⟩) ∧ (320 : ℚ) ≠ 8/100 * 6000 := by
  constructor
  · decide +kernel
  · norm_num

/-- **C37 (negation: padding).** At every flight condition with fewer points than the largest one (so that the packed
slices end with a padding zero) all dependent variables of the idle point, e.g. fuel flow, are zero whatever the
user's minimum fraction is. -/
theorem idlePoint_padded_violated (fr lo hi : ℚ) (n : ℕ) (direct others : List (List ℚ)) (r : IdlePt)
    (hp : ∀ y ∈ others, y.getLastD 0 = 0) (h : idlePoint fr lo hi n direct others = .ok (some r)) :
    ∀ v ∈ r.other, v = 0 := by
  have key : ∀ g : List ℚ → ℚ, ∀ v ∈ others.map (fun y => clampIdle lo hi y (g y)), v = 0 := by
    intro g v hv
    obtain ⟨y, hy, rfl⟩ := List.mem_map.1 hv
    exact clampIdle_padded _ _ _ _ (hp y hy)
  unfold idlePoint at h
  by_cases h1 : n = 0 ∨ direct.any (fun d => decide (d.getD 0 0 ≤ thrustTol)) = true
  · rw [if_pos h1] at h
    simp at h
  · rw [if_neg h1] at h
    by_cases h2 : n = 1
    · rw [if_pos h2] at h
      simp only [Except.ok.injEq, Option.some.injEq] at h
      subst h
      exact key (fun y => y.getD 0 0 * fr)
    · rw [if_neg h2] at h
      cases hd : idleDirect fr n none direct with
      | error e => rw [hd] at h; simp [bind, Except.bind] at h
      | ok q =>
        obtain ⟨vs, t⟩ := q
        rw [hd] at h
        simp only [bind, Except.bind] at h
        cases t with
        | none =>
          simp only at h
          split at h
          · simp only [Except.ok.injEq, Option.some.injEq] at h
            subst h
            simp
          · cases h
        | some t =>
          simp only [Except.ok.injEq, Option.some.injEq] at h
          subst h
          exact key (fun y => extrapolate t y)

/-- A padded flight condition: three points in an array for four. -/
example : idlePoint (8/100) (8/100) 1 2 [[1000, 2000, 4000, 0]] [[500, 900, 1600, 0]] =
    .ok (some ⟨[160], [0]⟩) := by decide +kernel

/-- **C37 (a single point).** With one recorded point above the tolerance, the idle point is the user's fraction of
that point: exactly for thrust and shaft power, within the limits for the other variables. -/
theorem idlePoint_single (fr lo hi : ℚ) (direct others : List (List ℚ))
    (h : ∀ d ∈ direct, 1 < d.getD 0 0) :
    ∃ r, idlePoint fr lo hi 1 direct others = .ok (some r) ∧
      r.direct = direct.map (fun d => fr * d.getD 0 0) ∧
      r.other = others.map (fun y => clampIdle lo hi y (fr * y.getD 0 0)) := by
  have hany : ¬ ((1 : ℕ) = 0 ∨ direct.any (fun d => decide (d.getD 0 0 ≤ thrustTol)) = true) := by
    rintro (h0 | h0)
    · omega
    · obtain ⟨d, hd, hle⟩ := List.any_eq_true.1 h0
      have h1 := h d hd
      have hle' := of_decide_eq_true hle
      exact absurd hle' (not_le.2 h1)
  refine ⟨⟨direct.map (fun d => d.getD 0 0 * fr), others.map (fun y => clampIdle lo hi y (y.getD 0 0 * fr))⟩,
    ?_, ?_, ?_⟩
  · unfold idlePoint
    rw [if_neg hany, if_pos rfl]
  · simp [mul_comm]
  · simp [mul_comm]

example : idlePoint (1/10) 0 1 1 [[1000, 0]] [[500, 300]] = .ok (some ⟨[100], [50]⟩) := by decide +kernel

/-- **C37 (no idle point where thrust is already low).** No idle point is generated exactly when there is no data or a
directly computed variable is at or below the tolerance at the lowest throttle, unless an error occurs. -/
theorem idlePoint_none_iff (fr lo hi : ℚ) (n : ℕ) (direct others : List (List ℚ)) :
    idlePoint fr lo hi n direct others = .ok none ↔ n = 0 ∨ ∃ d ∈ direct, d.getD 0 0 ≤ 1 := by
  have e : (n = 0 ∨ direct.any (fun d => decide (d.getD 0 0 ≤ thrustTol)) = true) ↔
      (n = 0 ∨ ∃ d ∈ direct, d.getD 0 0 ≤ 1) := by
    simp only [List.any_eq_true, decide_eq_true_eq]
    rfl
  rw [← e]
  unfold idlePoint
  by_cases h1 : n = 0 ∨ direct.any (fun d => decide (d.getD 0 0 ≤ thrustTol)) = true
  · rw [if_pos h1]; exact ⟨fun _ => h1, fun _ => rfl⟩
  · rw [if_neg h1]
    refine ⟨fun h => ?_, fun h => absurd h h1⟩
    exfalso
    by_cases h2 : n = 1
    · rw [if_pos h2] at h; simp at h
    · rw [if_neg h2] at h
      cases hd : idleDirect fr n none direct with
      | error e => rw [hd] at h; simp [bind, Except.bind] at h
      | ok q =>
        obtain ⟨vs, t⟩ := q
        rw [hd] at h
        simp only [bind, Except.bind] at h
        cases t with
        | none => simp only at h; split at h <;> simp at h
        | some t => simp at h

end Verif
