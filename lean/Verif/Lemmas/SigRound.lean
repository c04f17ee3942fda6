import Verif.Model.MissionEditor
import Mathlib.Tactic.Linarith
import Mathlib.Tactic.Ring
import Mathlib.Tactic.FieldSimp

/-!
# Rounding to significant digits

Properties of `halfEven` and `sig` of `Verif.Model.MissionEditor`.
-/

namespace Verif.MissionEditor

theorem halfEven_bounds (x : ℚ) : ⌊x⌋ ≤ halfEven x ∧ halfEven x ≤ ⌊x⌋ + 1 := by
  unfold halfEven
  split_ifs <;> omega

theorem halfEven_int (m : ℤ) : halfEven (m : ℚ) = m := by
  simp [halfEven]

/-- The nearest integer is no further than one half away. -/
theorem halfEven_near (x : ℚ) : |(halfEven x : ℚ) - x| ≤ 1 / 2 := by
  have h1 := Int.floor_le x
  have h2 := Int.lt_floor_add_one x
  unfold halfEven
  rw [abs_le]
  split_ifs <;> push_cast <;> constructor <;> linarith

theorem halfEven_mono {x y : ℚ} (h : x ≤ y) : halfEven x ≤ halfEven y := by
  have hf := Int.floor_le_floor h
  rcases lt_or_eq_of_le hf with hl | he
  · have := (halfEven_bounds x).2
    have := (halfEven_bounds y).1
    omega
  · unfold halfEven
    rw [← he]
    split_ifs <;> first | omega | (exfalso; linarith)

/-- The place of the last digit that is kept. -/
def place (p : ℕ) (x : ℚ) : ℤ := Int.log 10 |x| - ((max p 1 : ℕ) - 1)

theorem sig_pos (p : ℕ) {x : ℚ} (hx : 0 < x) : sig p x = halfEven (x / 10 ^ place p x) * 10 ^ place p x := by
  simp [sig, place, hx.ne']

theorem sig_zero (p : ℕ) : sig p 0 = 0 := by simp [sig]

theorem log_bounds {x : ℚ} (hx : 0 < x) : (10 : ℚ) ^ Int.log 10 |x| ≤ x ∧ x < (10 : ℚ) ^ (Int.log 10 |x| + 1) := by
  rw [abs_of_pos hx]
  exact ⟨by exact_mod_cast Int.zpow_log_le_self (b := 10) (by norm_num) hx,
    by exact_mod_cast Int.lt_zpow_succ_log_self (b := 10) (by norm_num) x⟩

theorem log_eq {x : ℚ} (hx : 0 < x) {k : ℤ} (h1 : (10 : ℚ) ^ k ≤ x) (h2 : x < (10 : ℚ) ^ (k + 1)) : Int.log 10 |x| = k := by
  rw [abs_of_pos hx]
  have a : k ≤ Int.log 10 x := (Int.zpow_le_iff_le_log (b := 10) (by norm_num) hx).1 (by exact_mod_cast h1)
  have b : Int.log 10 x < k + 1 := (Int.lt_zpow_iff_log_lt (b := 10) (by norm_num) hx).1 (by exact_mod_cast h2)
  omega

/-- The digits that are kept form an integer between two powers of ten. -/
theorem digits_bounds (p : ℕ) {x : ℚ} (hx : 0 < x) :
    ((10 : ℤ) ^ (max p 1 - 1) ≤ halfEven (x / 10 ^ place p x)) ∧ halfEven (x / 10 ^ place p x) ≤ (10 : ℤ) ^ (max p 1) := by
  obtain ⟨h1, h2⟩ := log_bounds hx
  have hk : (0 : ℚ) < 10 ^ place p x := zpow_pos (by norm_num) _
  have hP : 1 ≤ max p 1 := le_max_right _ _
  have e1 : (10 : ℚ) ^ Int.log 10 |x| = (10 : ℚ) ^ (max p 1 - 1) * 10 ^ place p x := by
    rw [← zpow_natCast, ← zpow_add₀ (by norm_num)]
    congr 1
    unfold place
    push_cast [hP]
    ring
  have e2 : (10 : ℚ) ^ (Int.log 10 |x| + 1) = (10 : ℚ) ^ (max p 1) * 10 ^ place p x := by
    rw [← zpow_natCast, ← zpow_add₀ (by norm_num)]
    congr 1
    unfold place
    ring
  constructor
  · have : ((((10 : ℤ) ^ (max p 1 - 1) : ℤ)) : ℚ) ≤ x / 10 ^ place p x := by
      rw [le_div_iff₀ hk]; push_cast; rw [← e1]; exact h1
    have := halfEven_mono this
    rwa [halfEven_int] at this
  · have : x / 10 ^ place p x ≤ (((10 : ℤ) ^ (max p 1) : ℤ) : ℚ) := by
      rw [div_le_iff₀ hk]; push_cast; rw [← e2]; exact h2.le
    have := halfEven_mono this
    rwa [halfEven_int] at this

theorem sig_bounds (p : ℕ) {x : ℚ} (hx : 0 < x) :
    (10 : ℚ) ^ Int.log 10 |x| ≤ sig p x ∧ sig p x ≤ (10 : ℚ) ^ (Int.log 10 |x| + 1) := by
  obtain ⟨h1, h2⟩ := digits_bounds p hx
  have hk : (0 : ℚ) < 10 ^ place p x := zpow_pos (by norm_num) _
  have hP : 1 ≤ max p 1 := le_max_right _ _
  have e1 : (10 : ℚ) ^ Int.log 10 |x| = (10 : ℚ) ^ (max p 1 - 1) * 10 ^ place p x := by
    rw [← zpow_natCast, ← zpow_add₀ (by norm_num)]
    congr 1
    unfold place
    push_cast [hP]
    ring
  have e2 : (10 : ℚ) ^ (Int.log 10 |x| + 1) = (10 : ℚ) ^ (max p 1) * 10 ^ place p x := by
    rw [← zpow_natCast, ← zpow_add₀ (by norm_num)]
    congr 1
    unfold place
    ring
  rw [sig_pos p hx, e1, e2]
  constructor
  · exact mul_le_mul_of_nonneg_right (by exact_mod_cast h1) hk.le
  · exact mul_le_mul_of_nonneg_right (by exact_mod_cast h2) hk.le

theorem sig_pos' (p : ℕ) {x : ℚ} (hx : 0 < x) : 0 < sig p x :=
  lt_of_lt_of_le (zpow_pos (by norm_num) _) (sig_bounds p hx).1

theorem sig_nonneg (p : ℕ) {x : ℚ} (hx : 0 ≤ x) : 0 ≤ sig p x := by
  rcases hx.lt_or_eq with h | h
  · exact (sig_pos' p h).le
  · rw [← h, sig_zero]

/-- A multiple of its own last place is not changed. -/
theorem sig_of_multiple (p : ℕ) {x : ℚ} (hx : 0 < x) {m : ℤ} {k : ℤ} (hm : x = m * 10 ^ k) (hk : place p x ≤ k) :
    sig p x = x := by
  have hk0 : (10 : ℚ) ^ place p x ≠ 0 := (zpow_pos (by norm_num) _).ne'
  obtain ⟨j, hj⟩ := Int.eq_ofNat_of_zero_le (sub_nonneg.2 hk)
  have : x / 10 ^ place p x = ((m * 10 ^ j : ℤ) : ℚ) := by
    rw [hm, mul_div_assoc, ← zpow_sub₀ (by norm_num : (10 : ℚ) ≠ 0), ← hm, hj]
    push_cast
    rw [zpow_natCast]
  rw [sig_pos p hx, this, halfEven_int, ← this, div_mul_cancel₀ _ hk0]

/-- Rounding twice is rounding once. -/
theorem sig_idem (p : ℕ) {x : ℚ} (hx : 0 ≤ x) : sig p (sig p x) = sig p x := by
  rcases hx.lt_or_eq with h | h
  · obtain ⟨b1, b2⟩ := sig_bounds p h
    have hs := sig_pos' p h
    refine sig_of_multiple p hs (m := if sig p x < 10 ^ (Int.log 10 |x| + 1) then halfEven (x / 10 ^ place p x)
      else 10 ^ (max p 1 - 1)) (k := place p (sig p x)) ?_ le_rfl
    split_ifs with hl
    · have : place p (sig p x) = place p x := by unfold place; rw [log_eq hs b1 hl]
      rw [this]; exact sig_pos p h
    · have he : sig p x = 10 ^ (Int.log 10 |x| + 1) := le_antisymm b2 (not_lt.1 hl)
      have : Int.log 10 |sig p x| = Int.log 10 |x| + 1 := log_eq hs he.ge (by
        rw [he]; exact zpow_lt_zpow_right₀ (by norm_num) (by omega))
      have hP : 1 ≤ max p 1 := le_max_right _ _
      unfold place
      rw [this, he]
      push_cast
      rw [← zpow_natCast, ← zpow_add₀ (by norm_num)]
      congr 1
      push_cast [hP]
      ring
  · rw [← h, sig_zero, sig_zero]

/-- Rounding keeps the order. -/
theorem sig_mono (p : ℕ) {x y : ℚ} (hx : 0 ≤ x) (h : x ≤ y) : sig p x ≤ sig p y := by
  rcases hx.lt_or_eq with h0 | h0
  · have hy : 0 < y := lt_of_lt_of_le h0 h
    have hl : Int.log 10 |x| ≤ Int.log 10 |y| := by
      rw [abs_of_pos h0, abs_of_pos hy]; exact Int.log_mono_right h0 h
    rcases hl.lt_or_eq with hlt | he
    · calc sig p x ≤ 10 ^ (Int.log 10 |x| + 1) := (sig_bounds p h0).2
        _ ≤ 10 ^ Int.log 10 |y| := zpow_le_zpow_right₀ (by norm_num) (by omega)
        _ ≤ sig p y := (sig_bounds p hy).1
    · have hp : place p x = place p y := by unfold place; rw [he]
      have hk : (0 : ℚ) < 10 ^ place p y := zpow_pos (by norm_num) _
      rw [sig_pos p h0, sig_pos p hy, hp]
      refine mul_le_mul_of_nonneg_right ?_ hk.le
      exact_mod_cast halfEven_mono (div_le_div_of_nonneg_right h hk.le)
  · rw [← h0, sig_zero]; exact sig_nonneg p (le_trans hx h)

/-- The error of the rounding is at most half a unit of the last digit kept. -/
theorem sig_near (p : ℕ) {x : ℚ} (hx : 0 < x) : |sig p x - x| ≤ 10 ^ place p x / 2 := by
  have hk : (0 : ℚ) < 10 ^ place p x := zpow_pos (by norm_num) _
  have h := halfEven_near (x / 10 ^ place p x)
  have e : sig p x - x = ((halfEven (x / 10 ^ place p x) : ℚ) - x / 10 ^ place p x) * 10 ^ place p x := by
    rw [sig_pos p hx, sub_mul, div_mul_cancel₀ _ hk.ne']
  rw [e, abs_mul, abs_of_pos hk]
  calc _ ≤ 1 / 2 * 10 ^ place p x := mul_le_mul_of_nonneg_right h hk.le
    _ = _ := by ring

end Verif.MissionEditor
