import Verif.Model.RoundIt
import Mathlib.Tactic.Linarith
import Mathlib.Tactic.Ring
import Mathlib.Tactic.FieldSimp
import Mathlib.Tactic.Positivity
import Mathlib.Algebra.Order.Field.Power
import Mathlib.Data.Rat.Cast.Order

/-!
# C47: significant digits
-/

namespace Verif

theorem roundEven_close (x : ℚ) : |(roundEven x : ℚ) - x| ≤ 1 / 2 := by
  have h1 := Int.floor_le x
  have h2 := Int.lt_floor_add_one x
  unfold roundEven
  rw [abs_le]
  split_ifs <;> push_cast <;> constructor <;> linarith

/-- Ties go to the even neighbour. -/
theorem roundEven_tie (n : ℤ) : Even (roundEven (n + 1 / 2 : ℚ)) := by
  have h : ⌊(n + 1 / 2 : ℚ)⌋ = n := by
    rw [Int.floor_eq_iff]; constructor <;> linarith
  unfold roundEven
  rw [h]
  have e : (n + 1 / 2 : ℚ) - n = 1 / 2 := by ring
  simp only [e, lt_irrefl, if_false]
  split_ifs with h2
  · exact Int.even_iff.2 h2
  · exact (Int.not_even_iff_odd.1 (fun h => h2 (Int.even_iff.1 h))).add_one

theorem roundEven_int (n : ℤ) : roundEven (n : ℚ) = n := by simp [roundEven]

theorem pyRound_close (x : ℚ) (n : ℤ) : |pyRound x n - x| ≤ 1 / 2 * (10 : ℚ) ^ (-n) := by
  have hp : (0 : ℚ) < 10 ^ n := by positivity
  have h := roundEven_close (x * 10 ^ n)
  have e : pyRound x n - x = (roundEven (x * 10 ^ n) - x * 10 ^ n) / 10 ^ n := by
    unfold pyRound; field_simp
  rw [e, abs_div, abs_of_pos hp, zpow_neg, div_eq_mul_inv]
  exact mul_le_mul_of_nonneg_right h (by positivity)

/-- A value on the grid is kept. -/
theorem pyRound_grid (m : ℤ) (k n : ℤ) (hk : k ≤ n) : pyRound ((m : ℚ) / 10 ^ k) n = m / 10 ^ k := by
  obtain ⟨d, hd⟩ := Int.le.dest hk
  have hp : (10 : ℚ) ^ n ≠ 0 := by positivity
  have hq : (10 : ℚ) ^ k ≠ 0 := by positivity
  have e : (m : ℚ) / 10 ^ k * 10 ^ n = ((m * 10 ^ d : ℤ) : ℚ) := by
    rw [← hd, zpow_add₀ (by norm_num : (10 : ℚ) ≠ 0)]
    push_cast
    field_simp
    simp
  unfold pyRound
  rw [e, roundEven_int, ← e]
  field_simp

/-- Rounding is monotone. -/
theorem roundEven_mono {x y : ℚ} (h : x ≤ y) : roundEven x ≤ roundEven y := by
  by_contra hlt
  rw [not_le] at hlt
  have h1 := abs_le.1 (roundEven_close x)
  have h2 := abs_le.1 (roundEven_close y)
  have hc : (roundEven y : ℚ) + 1 ≤ roundEven x := by exact_mod_cast hlt
  have hxy : x = y := by linarith [h1.1, h1.2, h2.1, h2.2]
  subst hxy
  exact lt_irrefl _ hlt

theorem roundEven_nearest (x : ℚ) (m : ℤ) : |(roundEven x : ℚ) - x| ≤ |(m : ℚ) - x| := by
  have h := roundEven_close x
  by_cases hm : m = roundEven x
  · rw [hm]
  · have hd : (1 : ℚ) ≤ |(m : ℚ) - roundEven x| := by
      have : (1 : ℤ) ≤ |m - roundEven x| := Int.one_le_abs (sub_ne_zero.2 hm)
      exact_mod_cast this
    have ht : |(m : ℚ) - roundEven x| ≤ |(m : ℚ) - x| + |x - roundEven x| := abs_sub_le _ _ _
    rw [abs_sub_comm x] at ht
    linarith

/-- The decade of a number: `10^e ≤ |x| < 10^(e+1)`. -/
theorem log_decade (x : ℚ) (hx : x ≠ 0) : (10 : ℚ) ^ Int.log 10 |x| ≤ |x| ∧ |x| < (10 : ℚ) ^ (Int.log 10 |x| + 1) := by
  have hp : 0 < |x| := abs_pos.2 hx
  exact ⟨by exact_mod_cast Int.zpow_log_le_self (b := 10) (by norm_num) hp,
    by exact_mod_cast Int.lt_zpow_succ_log_self (b := 10) (by norm_num) |x|⟩

theorem roundIt_eq (x : ℚ) (hx : x ≠ 0) (sig : ℕ) (hs : sig ≠ 0) :
    roundIt x sig = pyRound x (sig - Int.log 10 |x| - 1) := by simp [roundIt, hx, hs]

/-- **C47 (significant digits).** For every number in the decade `10^e ≤ |x| < 10^(e+1)` and every number of digits, the
result is a multiple of `10^(e+1-sig)`, no multiple is closer, and it is within half a unit of the last digit. -/
theorem roundIt_digits (x : ℚ) (hx : x ≠ 0) (sig : ℕ) (hs : sig ≠ 0) (e : ℤ) (he1 : (10 : ℚ) ^ e ≤ |x|)
    (he2 : |x| < (10 : ℚ) ^ (e + 1)) :
    (∃ m : ℤ, roundIt x sig = m * 10 ^ (e + 1 - sig)) ∧
    (∀ m : ℤ, |roundIt x sig - x| ≤ |m * 10 ^ (e + 1 - sig) - x|) ∧
    |roundIt x sig - x| ≤ 1 / 2 * 10 ^ (e + 1 - sig) := by
  have hp : 0 < |x| := abs_pos.2 hx
  have hlog : Int.log 10 |x| = e := by
    apply le_antisymm
    · have h1 := (log_decade x hx).1
      have := lt_of_le_of_lt h1 he2
      have := (zpow_lt_zpow_iff_right₀ (by norm_num : (1 : ℚ) < 10)).1 this
      omega
    · have h1 := (log_decade x hx).2
      have := lt_of_le_of_lt he1 h1
      have := (zpow_lt_zpow_iff_right₀ (by norm_num : (1 : ℚ) < 10)).1 this
      omega
  have hneg : (10 : ℚ) ^ (e + 1 - (sig : ℤ)) = ((10 : ℚ) ^ ((sig : ℤ) - e - 1))⁻¹ := by
    rw [← zpow_neg]; congr 1; ring
  have hpos : (0 : ℚ) < 10 ^ ((sig : ℤ) - e - 1) := by positivity
  rw [roundIt_eq x hx sig hs, hlog, hneg]
  generalize (sig : ℤ) - e - 1 = n at *
  refine ⟨⟨roundEven (x * 10 ^ n), by rw [pyRound, div_eq_mul_inv]⟩, ?_, ?_⟩
  · intro m
    have h := roundEven_nearest (x * 10 ^ n) m
    have e1 : pyRound x n - x = (roundEven (x * 10 ^ n) - x * 10 ^ n) / 10 ^ n := by unfold pyRound; field_simp
    have e2 : (m : ℚ) * (10 ^ n)⁻¹ - x = (m - x * 10 ^ n) / 10 ^ n := by field_simp
    rw [e1, e2, abs_div, abs_div]
    exact div_le_div_of_nonneg_right h (abs_nonneg _)
  · have := pyRound_close x n
    rwa [zpow_neg] at this

/-- **C47 (idempotent).** Rounding twice to the same number of digits changes nothing more. -/
theorem roundIt_idem (x : ℚ) (sig : ℕ) (hs : sig ≠ 0) : roundIt (roundIt x sig) sig = roundIt x sig := by
  by_cases hx : x = 0
  · subst hx; simp [roundIt]
  obtain ⟨h1, h2⟩ := log_decade x hx
  set e := Int.log 10 |x| with he
  have hr := roundIt_eq x hx sig hs
  rw [← he] at hr
  set n : ℤ := sig - e - 1 with hn
  -- the rounded integer
  set m := roundEven (x * 10 ^ n) with hm
  have hval : roundIt x sig = (m : ℚ) / 10 ^ n := by rw [hr, pyRound]
  have hpos : (0 : ℚ) < 10 ^ n := by positivity
  -- |m| ≤ 10 ^ sig
  have hbound : |m| ≤ 10 ^ sig := by
    have hxb : |x * 10 ^ n| ≤ (10 : ℚ) ^ sig := by
      rw [abs_mul, abs_of_pos hpos]
      have : |x| * 10 ^ n ≤ 10 ^ (e + 1) * 10 ^ n := mul_le_mul_of_nonneg_right h2.le hpos.le
      rw [← zpow_add₀ (by norm_num : (10 : ℚ) ≠ 0), show e + 1 + n = (sig : ℤ) by omega, zpow_natCast] at this
      exact this
    obtain ⟨ha, hb⟩ := abs_le.1 hxb
    rw [abs_le]
    constructor
    · have := roundEven_mono (x := ((-(10 ^ sig) : ℤ) : ℚ)) (y := x * 10 ^ n) (by push_cast; exact ha)
      rwa [roundEven_int] at this
    · have := roundEven_mono (x := x * 10 ^ n) (y := (((10 ^ sig) : ℤ) : ℚ)) (by push_cast; exact hb)
      rwa [roundEven_int] at this
  by_cases hm0 : m = 0
  · rw [hval, hm0]; simp [roundIt]
  have hne : (m : ℚ) / 10 ^ n ≠ 0 := by
    apply div_ne_zero _ hpos.ne'; exact_mod_cast hm0
  rw [hval, roundIt_eq _ hne sig hs]
  rcases lt_or_eq_of_le hbound with hlt | heq
  · apply pyRound_grid
    -- the decade does not grow
    have hl := (log_decade _ hne).1
    have hlt' : |(m : ℚ) / 10 ^ n| < 10 ^ (e + 1) := by
      rw [abs_div, abs_of_pos hpos, div_lt_iff₀ hpos, ← zpow_add₀ (by norm_num : (10 : ℚ) ≠ 0),
        show e + 1 + n = (sig : ℤ) by omega, zpow_natCast]
      exact_mod_cast hlt
    have := (zpow_lt_zpow_iff_right₀ (by norm_num : (1 : ℚ) < 10)).1 (lt_of_le_of_lt hl hlt')
    omega
  · -- m = ± 10 ^ sig : the value is ± 10 ^ (e+1)
    obtain ⟨s, hs1, hs2⟩ : ∃ s : ℤ, (s = 1 ∨ s = -1) ∧ m = s * 10 ^ sig := by
      rcases abs_choice m with h | h
      · exact ⟨1, Or.inl rfl, by rw [← heq, h]; ring⟩
      · exact ⟨-1, Or.inr rfl, by rw [← heq, h]; ring⟩
    have hv : (m : ℚ) / 10 ^ n = (s : ℚ) / 10 ^ (-(e + 1)) := by
      rw [hs2, zpow_neg, div_inv_eq_mul, div_eq_iff hpos.ne', mul_assoc, ← zpow_add₀ (by norm_num : (10 : ℚ) ≠ 0),
        show e + 1 + n = (sig : ℤ) by omega, zpow_natCast]
      push_cast; ring
    have hlog : Int.log 10 |(m : ℚ) / 10 ^ n| = e + 1 := by
      have habs : |(m : ℚ) / 10 ^ n| = (10 : ℚ) ^ (e + 1) := by
        rw [hv, zpow_neg, div_inv_eq_mul, abs_mul, abs_of_pos (by positivity : (0 : ℚ) < 10 ^ (e + 1))]
        rcases hs1 with rfl | rfl <;> simp
      rw [habs]
      have := Int.log_zpow (R := ℚ) (b := 10) (by norm_num) (e + 1)
      exact_mod_cast this
    rw [hlog, hv]
    apply pyRound_grid
    omega

/-- **C47 (zero).** Zero is returned as it is for every number of digits. -/
theorem roundIt_zero (sig : ℕ) : roundIt 0 sig = 0 := by simp [roundIt]

/-- **C47 (default, partial).** Without a number of digits, a number of at least 1 whose rounding has as many digits as
the number before the point is rounded to two decimal places. -/
theorem roundIt_default_partial (x : ℚ) (e : ℕ) (h1 : (10 : ℚ) ^ e ≤ x) (h2 : x < (10 : ℚ) ^ (e + 1))
    (h3 : strLen (roundEven x) = e + 1) : roundIt x 0 = pyRound x 2 := by
  have hx : 0 < x := lt_of_lt_of_le (by positivity) h1
  have hlog : Int.log 10 |x| = e := by
    rw [abs_of_pos hx]
    obtain ⟨a, b⟩ := log_decade x hx.ne'
    rw [abs_of_pos hx] at a b
    apply le_antisymm
    · have : (10 : ℚ) ^ Int.log 10 x < (10 : ℚ) ^ ((e : ℤ) + 1) := lt_of_le_of_lt a (by exact_mod_cast h2)
      have := (zpow_lt_zpow_iff_right₀ (by norm_num : (1 : ℚ) < 10)).1 this
      omega
    · have : (10 : ℚ) ^ (e : ℤ) < (10 : ℚ) ^ (Int.log 10 x + 1) := lt_of_le_of_lt (by exact_mod_cast h1) b
      have := (zpow_lt_zpow_iff_right₀ (by norm_num : (1 : ℚ) < 10)).1 this
      omega
  simp only [roundIt, hx.ne', ne_eq, not_false_eq_true, if_true, hlog, h3]
  congr 1
  push_cast; ring

/-- **C47 violated (default).** The documented two decimal places are not kept for negative numbers, numbers below 1 and
numbers that round up to more digits: three or more decimals are left. -/
theorem roundIt_default_violated :
    roundIt (-(12345 / 10000)) 0 ≠ pyRound (-(12345 / 10000)) 2 ∧
    roundIt (12345 / 1000000) 0 ≠ pyRound (12345 / 1000000) 2 ∧
    roundIt (99876 / 10000) 0 ≠ pyRound (99876 / 10000) 2 := by
  have l1 : Int.log 10 |(-(12345 / 10000) : ℚ)| = 0 := by decide +kernel
  have l2 : Int.log 10 |(12345 / 1000000 : ℚ)| = -2 := by decide +kernel
  have l3 : Int.log 10 |(99876 / 10000 : ℚ)| = 0 := by decide +kernel
  decide +kernel

example : roundIt (123456 / 100) 3 = 1230 ∧ roundIt (123456 / 100) 0 = 123456 / 100 := by decide +kernel

end Verif
