import Mathlib.Analysis.SpecialFunctions.Log.Deriv
import Mathlib.Analysis.Calculus.Deriv.Mul
import Mathlib.Analysis.Calculus.Deriv.Inv
import Mathlib.Analysis.Calculus.Deriv.Add
import Mathlib.Tactic.FieldSimp
import Mathlib.Tactic.Linarith
import Mathlib.Tactic.Positivity
import Verif.Model.Cruise

/-!
# Cruise with given masses or energies

C87 fuel burning cruise, C88 electric and simple cruise.
-/

namespace Verif.Cruise

open Finset Function

/-! ## C87 Fuel burning cruise -/

theorem prod_eq (nn : ℕ) (d1 d2 : ℕ → ℝ) (i j : ℕ) (hi : i < nn) :
    prod nn d1 d2 i j = ∑ k ∈ range (i + 1), scratch d1 d2 k j := by
  unfold prod tri
  have hs : range (i + 1) ⊆ range nn := by
    intro k hk; simp only [mem_range] at *; omega
  rw [← Finset.sum_subset hs]
  · apply Finset.sum_congr rfl
    intro k hk
    rw [mem_range] at hk
    rw [if_pos (by omega), one_mul]
  · intro k _ hk
    rw [mem_range] at hk
    rw [if_neg (by omega), zero_mul]

/-- Entries above the diagonal of the product vanish, so that storing the lower triangle loses nothing. -/
theorem prod_upper (nn : ℕ) (d1 d2 : ℕ → ℝ) (i j : ℕ) (hi : i < nn) (hj : i < j) : prod nn d1 d2 i j = 0 := by
  rw [prod_eq nn d1 d2 i j hi]
  apply Finset.sum_eq_zero
  intro k hk
  rw [mem_range] at hk
  cases k with
  | zero => rfl
  | succ k => simp only [scratch]; rw [if_neg (by omega), if_neg (by omega)]

theorem jacRange_eq (nn : ℕ) (d1 d2 : ℕ → ℝ) (i j : ℕ) (hi : i < nn) :
    jacRange nn d1 d2 i j = ∑ k ∈ range (i + 1), scratch d1 d2 k j := by
  unfold jacRange
  by_cases h : j ≤ i
  · rw [if_pos h, prod_eq nn d1 d2 i j hi]
  · rw [if_neg h, ← prod_eq nn d1 d2 i j hi, prod_upper nn d1 d2 i j hi (by omega)]

/-- Derivative of a cumulative sum whose terms depend on neighbouring nodes. -/
theorem cum_hasDerivAt (F : ℕ → ℝ → ℝ → ℝ) (x d1 d2 : ℕ → ℝ) (j : ℕ) : ∀ i : ℕ,
    (∀ k < i, HasDerivAt (fun a => F k a (x (k + 1))) (d1 k) (x k)) →
    (∀ k < i, HasDerivAt (fun b => F k (x k) b) (d2 k) (x (k + 1))) →
    HasDerivAt (fun y => cum (fun k => F k (update x j y k) (update x j y (k + 1))) i)
      (∑ k ∈ range (i + 1), scratch d1 d2 k j) (x j)
  | 0, _, _ => by
    simp only [cum, zero_add, range_one, sum_singleton, scratch]
    exact hasDerivAt_const _ _
  | i + 1, h1, h2 => by
    rw [Finset.sum_range_succ]
    have ih := cum_hasDerivAt F x d1 d2 j i (fun k hk => h1 k (by omega)) (fun k hk => h2 k (by omega))
    refine HasDerivAt.add (f := fun y => cum (fun k => F k (update x j y k) (update x j y (k + 1))) i)
      (g := fun y => F i (update x j y i) (update x j y (i + 1))) ih ?_
    simp only [scratch]
    by_cases e1 : j = i
    · subst e1
      rw [if_pos rfl]
      simp only [update_self, update_of_ne (Nat.succ_ne_self j)]
      exact h1 j (by omega)
    · rw [if_neg e1]
      by_cases e2 : j = i + 1
      · subst e2
        rw [if_pos rfl]
        simp only [update_self, update_of_ne (Nat.succ_ne_self i).symm]
        exact h2 i (by omega)
      · rw [if_neg e2]
        simp only [update_of_ne (Ne.symm e1), update_of_ne (Ne.symm e2)]
        exact hasDerivAt_const _ _

theorem rangeOut_eq (r0 : ℝ) (dr : ℕ → ℝ) (i : ℕ) : rangeOut r0 dr i = r0 + cum dr i := by
  unfold rangeOut
  split
  · next h => subst h; simp [cum]
  · rfl

theorem ratio_eq (a b : ℝ) (ha : a ≠ 0) : 1 / (1 - (a * gravLbm - b * gravLbm) / (a * gravLbm)) = a / b := by
  have : 1 - (a * gravLbm - b * gravLbm) / (a * gravLbm) = b / a := by
    unfold gravLbm
    field_simp
    ring
  rw [this, one_div_div]

/-- The weight cancels in the logarithm: it is that of the mass ratio. -/
theorem star_eq (m : ℕ → ℝ) (k : ℕ) (h0 : m k ≠ 0) : star m k = Real.log (m k / m (k + 1)) := by
  unfold star
  rw [ratio_eq _ _ h0]

/-- The nodes up to `i` have mass and burn fuel. -/
def Burns (m ffn : ℕ → ℝ) (i : ℕ) : Prop := ∀ k ≤ i, 0 < m k ∧ ffn k < 0

theorem hasDerivAt_star (a b : ℝ) (ha : 0 < a) (hb : 0 < b) :
    HasDerivAt (fun x => Real.log (1 / (1 - (x * gravLbm - b * gravLbm) / (x * gravLbm)))) (1 / a) a ∧
    HasDerivAt (fun x => Real.log (1 / (1 - (a * gravLbm - x * gravLbm) / (a * gravLbm)))) (-1 / b) b := by
  have e1 : ∀ x, 0 < x → Real.log (1 / (1 - (x * gravLbm - b * gravLbm) / (x * gravLbm))) = Real.log x - Real.log b := by
    intro x hx
    rw [← Real.log_div hx.ne' hb.ne', ratio_eq _ _ hx.ne']
  have e2 : ∀ x, 0 < x → Real.log (1 / (1 - (a * gravLbm - x * gravLbm) / (a * gravLbm))) = Real.log a - Real.log x := by
    intro x hx
    rw [← Real.log_div ha.ne' hx.ne', ratio_eq _ _ ha.ne']
  constructor
  · have h := (Real.hasDerivAt_log ha.ne').sub_const (Real.log b)
    rw [one_div]
    refine h.congr_of_eventuallyEq ?_
    filter_upwards [lt_mem_nhds ha] with x hx using e1 x hx
  · have h := (Real.hasDerivAt_log hb.ne').const_sub (Real.log a)
    rw [neg_div, one_div]
    refine h.congr_of_eventuallyEq ?_
    filter_upwards [lt_mem_nhds hb] with x hx using e2 x hx

theorem update_comp (f : ℕ → ℝ) (j : ℕ) : update f j (f j) = f := update_eq_self j f

/-- Partials of the range by the mass, for every number of nodes. -/
theorem range_by_mass (nn i j : ℕ) (hi : i < nn) (r0 : ℝ) (v m ffn : ℕ → ℝ) (h : Burns m ffn i) :
    HasDerivAt (fun x => rangeOut r0 (drange v (update m j x) ffn) i)
      (jacRange nn (dM1 v m ffn) (dM2 v m ffn) i j) (m j) := by
  rw [jacRange_eq nn _ _ i j hi]
  simp only [rangeOut_eq]
  refine HasDerivAt.const_add r0 ?_
  refine cum_hasDerivAt (fun k a b => (v k * (a * gravLbm) * 3600 / -ffn k + v (k + 1) * (b * gravLbm) * 3600 / -ffn (k + 1)) / 2
    * Real.log (1 / (1 - (a * gravLbm - b * gravLbm) / (a * gravLbm)))) m _ _ j i ?_ ?_
  · intro k hk
    obtain ⟨p1, q1⟩ := h k (by omega)
    obtain ⟨p2, q2⟩ := h (k + 1) (by omega)
    have hl := (hasDerivAt_star (m k) (m (k + 1)) p1 p2).1
    have hb : HasDerivAt (fun a => (v k * (a * gravLbm) * 3600 / -ffn k + v (k + 1) * (m (k + 1) * gravLbm) * 3600 / -ffn (k + 1)) / 2)
        (v k * 3600 / -ffn k / 2 * gravLbm) (m k) := by
      have := ((((((hasDerivAt_id (m k)).mul_const gravLbm).const_mul (v k)).mul_const 3600).div_const (-ffn k)).add_const
        (v (k + 1) * (m (k + 1) * gravLbm) * 3600 / -ffn (k + 1))).div_const 2
      refine this.congr_deriv ?_
      simp only [one_mul]
      ring
    refine (hb.mul hl).congr_deriv ?_
    unfold dM1 star breg gravLbm
    ring
  · intro k hk
    obtain ⟨p1, q1⟩ := h k (by omega)
    obtain ⟨p2, q2⟩ := h (k + 1) (by omega)
    have hl := (hasDerivAt_star (m k) (m (k + 1)) p1 p2).2
    have hb : HasDerivAt (fun b => (v k * (m k * gravLbm) * 3600 / -ffn k + v (k + 1) * (b * gravLbm) * 3600 / -ffn (k + 1)) / 2)
        (v (k + 1) * 3600 / -ffn (k + 1) / 2 * gravLbm) (m (k + 1)) := by
      have := ((((((hasDerivAt_id (m (k + 1))).mul_const gravLbm).const_mul (v (k + 1))).mul_const 3600).div_const
        (-ffn (k + 1))).const_add (v k * (m k * gravLbm) * 3600 / -ffn k)).div_const 2
      refine this.congr_deriv ?_
      simp only [one_mul]
      ring
    refine (hb.mul hl).congr_deriv ?_
    unfold dM2 star breg gravLbm
    ring

/-- A quotient by the negative of the variable. -/
theorem hasDerivAt_overNeg (c x : ℝ) (hx : x ≠ 0) : HasDerivAt (fun y => c / -y) (c / (-x) ^ 2) x := by
  have h := (hasDerivAt_const x c).div (hasDerivAt_neg x) (neg_ne_zero.mpr hx)
  refine h.congr_deriv ?_
  ring

/-- Partials of the range by the (negative) fuel flow. -/
theorem range_by_flow (nn i j : ℕ) (hi : i < nn) (r0 : ℝ) (v m ffn : ℕ → ℝ) (h : Burns m ffn i) :
    HasDerivAt (fun x => rangeOut r0 (drange v m (update ffn j x)) i)
      (jacRange nn (dFF1 v m ffn) (dFF2 v m ffn) i j) (ffn j) := by
  rw [jacRange_eq nn _ _ i j hi]
  simp only [rangeOut_eq]
  refine HasDerivAt.const_add r0 ?_
  refine cum_hasDerivAt (fun k a b => (v k * (m k * gravLbm) * 3600 / -a + v (k + 1) * (m (k + 1) * gravLbm) * 3600 / -b) / 2
    * star m k) ffn _ _ j i ?_ ?_
  · intro k hk
    have q1 := (h k (by omega)).2.ne
    refine ((((hasDerivAt_overNeg _ _ q1).add_const _).div_const 2).mul_const _).congr_deriv ?_
    unfold dFF1
    ring
  · intro k hk
    have q1 := (h (k + 1) (by omega)).2.ne
    refine ((((hasDerivAt_overNeg _ _ q1).const_add _).div_const 2).mul_const _).congr_deriv ?_
    unfold dFF2
    ring

/-- Partials of the cumulative distance by the speed. -/
theorem cum_by_speed (nn i j : ℕ) (hi : i < nn) (v m ffn : ℕ → ℝ) :
    HasDerivAt (fun x => cum (drange (update v j x) m ffn) i) (prod nn (dV1 m ffn) (dV2 m ffn) i j) (v j) := by
  rw [prod_eq nn _ _ i j hi]
  refine cum_hasDerivAt (fun k a b => (a * (m k * gravLbm) * 3600 / -ffn k + b * (m (k + 1) * gravLbm) * 3600 / -ffn (k + 1)) / 2
    * star m k) v _ _ j i ?_ ?_
  · intro k _
    refine (((((((hasDerivAt_id (v k)).mul_const (m k * gravLbm)).mul_const 3600).div_const (-ffn k)).add_const _).div_const
      2).mul_const (star m k)).congr_deriv ?_
    unfold dV1
    ring
  · intro k _
    refine (((((((hasDerivAt_id (v (k + 1))).mul_const (m (k + 1) * gravLbm)).mul_const 3600).div_const
      (-ffn (k + 1))).const_add _).div_const 2).mul_const (star m k)).congr_deriv ?_
    unfold dV2
    ring

theorem range_by_speed (nn i j : ℕ) (hi : i < nn) (r0 : ℝ) (v m ffn : ℕ → ℝ) :
    HasDerivAt (fun x => rangeOut r0 (drange (update v j x) m ffn) i)
      (jacRange nn (dV1 m ffn) (dV2 m ffn) i j) (v j) := by
  rw [jacRange_eq nn _ _ i j hi, ← prod_eq nn _ _ i j hi]
  simp only [rangeOut_eq]
  exact (cum_by_speed nn i j hi v m ffn).const_add r0

/-- The mean speed by the speed of a node, as in the second scratch matrix. -/
theorem vm_hasDerivAt (v : ℕ → ℝ) (i j : ℕ) : HasDerivAt (fun x => vm (update v j x) i)
    (scratch (fun _ => 1 / 2) (fun _ => 1 / 2) (i + 1) j) (v j) := by
  simp only [scratch, vm]
  by_cases e1 : j = i
  · subst e1
    rw [if_pos rfl]
    simp only [update_self, update_of_ne (Nat.succ_ne_self j)]
    refine (((hasDerivAt_id (v j)).add_const (v (j + 1))).div_const 2)
  · rw [if_neg e1]
    by_cases e2 : j = i + 1
    · subst e2
      rw [if_pos rfl]
      simp only [update_self, update_of_ne (Nat.succ_ne_self i).symm]
      exact (((hasDerivAt_id (v (i + 1))).const_add (v i)).div_const 2)
    · rw [if_neg e2]
      simp only [update_of_ne (Ne.symm e1), update_of_ne (Ne.symm e2)]
      exact hasDerivAt_const _ _

/-- Time by a variable that does not change the speed. -/
theorem time_by_other (nn i j : ℕ) (hi : i < nn) (t0 x : ℝ) (v : ℕ → ℝ) (dr : ℝ → ℕ → ℝ) (d1 d2 : ℕ → ℝ)
    (h : HasDerivAt (fun y => cum (dr y) i) (jacRange nn d1 d2 i j) x) :
    HasDerivAt (fun y => timeOut t0 (dr y) v i) (jacTime nn d1 d2 (vm v) i j) x := by
  unfold timeOut jacTime
  by_cases h0 : i = 0
  · subst h0
    simp only [if_true, ite_self]
    exact hasDerivAt_const _ _
  · simp only [if_neg h0]
    refine ((h.div_const (vm v (i - 1))).const_add t0).congr_deriv ?_
    by_cases hj : j ≤ i
    · rw [if_pos hj]
    · rw [if_neg hj]
      simp [jacRange, hj]

theorem time_by_mass (nn i j : ℕ) (hi : i < nn) (t0 : ℝ) (v m ffn : ℕ → ℝ) (h : Burns m ffn i) :
    HasDerivAt (fun x => timeOut t0 (drange v (update m j x) ffn) v i)
      (jacTime nn (dM1 v m ffn) (dM2 v m ffn) (vm v) i j) (m j) := by
  apply time_by_other nn i j hi
  have := range_by_mass nn i j hi 0 v m ffn h
  simpa only [rangeOut_eq, zero_add] using this

theorem time_by_flow (nn i j : ℕ) (hi : i < nn) (t0 : ℝ) (v m ffn : ℕ → ℝ) (h : Burns m ffn i) :
    HasDerivAt (fun x => timeOut t0 (drange v m (update ffn j x)) v i)
      (jacTime nn (dFF1 v m ffn) (dFF2 v m ffn) (vm v) i j) (ffn j) := by
  apply time_by_other nn i j hi
  have := range_by_flow nn i j hi 0 v m ffn h
  simpa only [rangeOut_eq, zero_add] using this

/-- Time by the speed, for a distance whose own partials are right. -/
theorem time_by_speed_of (nn i j : ℕ) (hi : i < nn) (t0 : ℝ) (v : ℕ → ℝ) (dr : (ℕ → ℝ) → ℕ → ℝ) (d1 d2 : ℕ → ℝ)
    (hv : ∀ k, k + 1 ≤ i → vm v k ≠ 0)
    (h : HasDerivAt (fun y => cum (dr (update v j y)) i) (prod nn d1 d2 i j) (v j)) :
    HasDerivAt (fun y => timeOut t0 (dr (update v j y)) (update v j y) i)
      (jacTimeSpeed nn d1 d2 (dr v) (vm v) i j) (v j) := by
  unfold timeOut jacTimeSpeed
  by_cases h0 : i = 0
  · subst h0
    simp only [if_true, ite_self]
    exact hasDerivAt_const _ _
  · simp only [if_neg h0]
    obtain ⟨n, rfl⟩ := Nat.exists_eq_succ_of_ne_zero h0
    simp only [Nat.succ_eq_add_one, Nat.add_sub_cancel] at *
    have hne : vm (update v j (v j)) n ≠ 0 := by rw [update_comp]; exact hv n le_rfl
    have hq := h.div (vm_hasDerivAt v n j) hne
    refine (hq.const_add t0).congr_deriv ?_
    simp only [update_comp]
    by_cases hj : j ≤ n + 1
    · rw [if_pos hj]
      ring
    · rw [if_neg hj, prod_upper nn d1 d2 (n + 1) j hi (by omega)]
      simp only [scratch]
      rw [if_neg (by omega), if_neg (by omega)]
      simp

theorem time_by_speed (nn i j : ℕ) (hi : i < nn) (t0 : ℝ) (v m ffn : ℕ → ℝ) (hv : ∀ k ≤ i, 0 < v k) :
    HasDerivAt (fun x => timeOut t0 (drange (update v j x) m ffn) (update v j x) i)
      (jacTimeSpeed nn (dV1 m ffn) (dV2 m ffn) (drange v m ffn) (vm v) i j) (v j) := by
  refine time_by_speed_of nn i j hi t0 v (fun w => drange w m ffn) _ _ ?_ (cum_by_speed nn i j hi v m ffn)
  intro k hk
  have h1 := hv k (by omega)
  have h2 := hv (k + 1) hk
  unfold vm
  positivity

/-- The range grows while fuel is burned: it never falls from node to node when the masses do not rise. -/
theorem range_monotone (r0 : ℝ) (v m ffn : ℕ → ℝ) (i : ℕ) (h : Burns m ffn (i + 1)) (hv : ∀ k ≤ i + 1, 0 < v k)
    (hm : m (i + 1) ≤ m i) : rangeOut r0 (drange v m ffn) i ≤ rangeOut r0 (drange v m ffn) (i + 1) := by
  rw [rangeOut_eq, rangeOut_eq]
  simp only [cum]
  have hd : 0 ≤ drange v m ffn i := by
    obtain ⟨p1, q1⟩ := h i (by omega)
    obtain ⟨p2, q2⟩ := h (i + 1) le_rfl
    have v1 := hv i (by omega)
    have v2 := hv (i + 1) le_rfl
    unfold drange
    have hs : 0 ≤ star m i := by
      rw [star_eq m i p1.ne']
      exact Real.log_nonneg ((one_le_div p2).mpr hm)
    have b1 : 0 < breg v m ffn i := by
      unfold breg gravLbm
      exact div_pos (by positivity) (neg_pos.mpr q1)
    have b2 : 0 < breg v m ffn (i + 1) := by
      unfold breg gravLbm
      exact div_pos (by positivity) (neg_pos.mpr q2)
    positivity
  linarith

/-- The Breguet equation: with a constant range factor the range is the factor times the logarithm of the mass ratio, at
whatever masses the nodes are placed. -/
theorem range_breguet (r0 B : ℝ) (v m ffn : ℕ → ℝ) : ∀ i : ℕ, Burns m ffn i → (∀ k ≤ i, breg v m ffn k = B) →
    rangeOut r0 (drange v m ffn) i = r0 + B * Real.log (m 0 / m i)
  | 0, h, _ => by
    have := (h 0 le_rfl).1.ne'
    simp [rangeOut, div_self this]
  | i + 1, h, hB => by
    have ih := range_breguet r0 B v m ffn i (fun k hk => h k (by omega)) (fun k hk => hB k (by omega))
    rw [rangeOut_eq] at ih ⊢
    have h0 := (h 0 (by omega)).1
    have h1 := (h i (by omega)).1
    have h2 := (h (i + 1) le_rfl).1
    simp only [cum, drange, hB i (by omega), hB (i + 1) le_rfl, star_eq m i h1.ne']
    rw [Real.log_div h0.ne' h1.ne'] at ih
    rw [Real.log_div h0.ne' h2.ne', Real.log_div h1.ne' h2.ne']
    linarith

/-- At constant speed the time is the distance flown over the speed. -/
theorem time_constant_speed_partial (t0 r0 c : ℝ) (v m ffn : ℕ → ℝ) (i : ℕ) (hv : ∀ k ≤ i, v k = c) :
    timeOut t0 (drange v m ffn) v i = t0 + (rangeOut r0 (drange v m ffn) i - r0) / c := by
  rw [rangeOut_eq]
  unfold timeOut
  by_cases h : i = 0
  · subst h; simp [cum]
  · rw [if_neg h]
    obtain ⟨n, rfl⟩ := Nat.exists_eq_succ_of_ne_zero h
    simp only [Nat.succ_eq_add_one, Nat.add_sub_cancel, vm, hv n (by omega), hv (n + 1) le_rfl]
    congr 1
    rw [add_sub_cancel_left]
    congr 1
    ring

/-- A cruise that speeds up: three nodes with equal legs. -/
noncomputable def speedUp : ℕ → ℝ := fun k => if k ≤ 1 then 1 else 9
noncomputable def halving : ℕ → ℝ := fun k => if k = 0 then 4 else if k = 1 then 2 else 1

/-- The whole distance is divided by the mean speed of the last leg, so the time runs backwards when the aircraft speeds
up although distance is gained. -/
theorem time_backwards_violated :
    let ffn := fun k => -(speedUp k * halving k * 3600)
    Burns halving ffn 2 ∧
    rangeOut 0 (drange speedUp halving ffn) 1 < rangeOut 0 (drange speedUp halving ffn) 2 ∧
    timeOut 0 (drange speedUp halving ffn) speedUp 2 < timeOut 0 (drange speedUp halving ffn) speedUp 1 := by
  intro ffn
  have hB : Burns halving ffn 2 := by
    intro k hk
    have : k = 0 ∨ k = 1 ∨ k = 2 := by omega
    rcases this with rfl | rfl | rfl <;> simp only [ffn, speedUp, halving] <;> norm_num
  have hb : ∀ k ≤ 2, breg speedUp halving ffn k = 1 := by
    intro k hk
    have : k = 0 ∨ k = 1 ∨ k = 2 := by omega
    rcases this with rfl | rfl | rfl <;> simp only [breg, gravLbm, ffn, speedUp, halving] <;> norm_num
  have r1 := range_breguet 0 1 speedUp halving ffn 1 (fun k hk => hB k (by omega)) (fun k hk => hb k (by omega))
  have r2 := range_breguet 0 1 speedUp halving ffn 2 hB hb
  rw [rangeOut_eq] at r1 r2
  have l2 : 0 < Real.log 2 := Real.log_pos (by norm_num)
  have l4 : Real.log 4 = 2 * Real.log 2 := by
    rw [show (4 : ℝ) = 2 ^ 2 by norm_num, Real.log_pow]; norm_num
  have c1 : cum (drange speedUp halving ffn) 1 = Real.log 2 := by
    have : halving 0 / halving 1 = 2 := by simp only [halving]; norm_num
    rw [this] at r1; linarith
  have c2 : cum (drange speedUp halving ffn) 2 = 2 * Real.log 2 := by
    have : halving 0 / halving 2 = 4 := by simp only [halving]; norm_num
    rw [this, l4] at r2; linarith
  refine ⟨hB, ?_, ?_⟩
  · rw [rangeOut_eq, rangeOut_eq, c1, c2]; linarith
  · simp only [timeOut, c1, c2, vm, speedUp]
    norm_num
    linarith

example : Burns halving (fun k => -(speedUp k * halving k * 3600)) 2 := time_backwards_violated.1

/-! ## C88 Electric and simple cruise -/

theorem cum_edrange (v e p : ℕ → ℝ) : ∀ i : ℕ, cum (edrange v e p) i = ebreg v e p i - ebreg v e p 0
  | 0 => by simp [cum]
  | i + 1 => by
    simp only [cum, cum_edrange v e p i, edrange]
    ring

/-- Partials of the range by the power. -/
theorem erange_by_power (nn i j : ℕ) (hi : i < nn) (r0 : ℝ) (v e p : ℕ → ℝ) (h : ∀ k ≤ i, p k ≠ 0) :
    HasDerivAt (fun x => rangeOut r0 (edrange v e (update p j x)) i) (jacRange nn (eP1 v e p) (eP2 v e p) i j) (p j) := by
  rw [jacRange_eq nn _ _ i j hi]
  simp only [rangeOut_eq]
  refine HasDerivAt.const_add r0 ?_
  have key : ∀ c x : ℝ, x ≠ 0 → HasDerivAt (fun y => c / y) (-c / x ^ 2) x := by
    intro c x hx
    refine ((hasDerivAt_const x c).div (hasDerivAt_id x) hx).congr_deriv ?_
    simp
  refine cum_hasDerivAt (fun k a b => v (k + 1) * e (k + 1) * 3600 / b - v k * e k * 3600 / a) p _ _ j i ?_ ?_
  · intro k hk
    refine ((key (v k * e k * 3600) _ (h k (by omega))).const_sub _).congr_deriv ?_
    unfold eP1
    ring
  · intro k hk
    refine ((key (v (k + 1) * e (k + 1) * 3600) _ (h (k + 1) (by omega))).sub_const _).congr_deriv ?_
    unfold eP2
    ring

/-- Partials of the range by the energy. -/
theorem erange_by_energy (nn i j : ℕ) (hi : i < nn) (r0 : ℝ) (v e p : ℕ → ℝ) :
    HasDerivAt (fun x => rangeOut r0 (edrange v (update e j x) p) i) (jacRange nn (eE1 v p) (eE2 v p) i j) (e j) := by
  rw [jacRange_eq nn _ _ i j hi]
  simp only [rangeOut_eq]
  refine HasDerivAt.const_add r0 ?_
  refine cum_hasDerivAt (fun k a b => v (k + 1) * b * 3600 / p (k + 1) - v k * a * 3600 / p k) e _ _ j i ?_ ?_
  · intro k hk
    refine (((((hasDerivAt_id (e k)).const_mul (v k)).mul_const 3600).div_const (p k)).const_sub _).congr_deriv ?_
    unfold eE1
    ring
  · intro k hk
    refine (((((hasDerivAt_id (e (k + 1))).const_mul (v (k + 1))).mul_const 3600).div_const (p (k + 1))).sub_const _).congr_deriv
      ?_
    unfold eE2
    ring

theorem ecum_by_speed (nn i j : ℕ) (hi : i < nn) (v e p : ℕ → ℝ) :
    HasDerivAt (fun x => cum (edrange (update v j x) e p) i) (prod nn (eV1 e p) (eV2 e p) i j) (v j) := by
  rw [prod_eq nn _ _ i j hi]
  refine cum_hasDerivAt (fun k a b => b * e (k + 1) * 3600 / p (k + 1) - a * e k * 3600 / p k) v _ _ j i ?_ ?_
  · intro k hk
    refine (((((hasDerivAt_id (v k)).mul_const (e k)).mul_const 3600).div_const (p k)).const_sub _).congr_deriv ?_
    unfold eV1
    ring
  · intro k hk
    refine (((((hasDerivAt_id (v (k + 1))).mul_const (e (k + 1))).mul_const 3600).div_const (p (k + 1))).sub_const
      _).congr_deriv ?_
    unfold eV2
    ring

theorem erange_by_speed (nn i j : ℕ) (hi : i < nn) (r0 : ℝ) (v e p : ℕ → ℝ) :
    HasDerivAt (fun x => rangeOut r0 (edrange (update v j x) e p) i) (jacRange nn (eV1 e p) (eV2 e p) i j) (v j) := by
  rw [jacRange_eq nn _ _ i j hi, ← prod_eq nn _ _ i j hi]
  simp only [rangeOut_eq]
  exact (ecum_by_speed nn i j hi v e p).const_add r0

theorem etime_by_power (nn i j : ℕ) (hi : i < nn) (t0 : ℝ) (v e p : ℕ → ℝ) (h : ∀ k ≤ i, p k ≠ 0) :
    HasDerivAt (fun x => timeOut t0 (edrange v e (update p j x)) v i)
      (jacTime nn (eP1 v e p) (eP2 v e p) (vm v) i j) (p j) := by
  apply time_by_other nn i j hi
  have := erange_by_power nn i j hi 0 v e p h
  simpa only [rangeOut_eq, zero_add] using this

theorem etime_by_energy (nn i j : ℕ) (hi : i < nn) (t0 : ℝ) (v e p : ℕ → ℝ) :
    HasDerivAt (fun x => timeOut t0 (edrange v (update e j x) p) v i)
      (jacTime nn (eE1 v p) (eE2 v p) (vm v) i j) (e j) := by
  apply time_by_other nn i j hi
  have := erange_by_energy nn i j hi 0 v e p
  simpa only [rangeOut_eq, zero_add] using this

theorem etime_by_speed (nn i j : ℕ) (hi : i < nn) (t0 : ℝ) (v e p : ℕ → ℝ) (hv : ∀ k ≤ i, 0 < v k) :
    HasDerivAt (fun x => timeOut t0 (edrange (update v j x) e p) (update v j x) i)
      (jacTimeSpeed nn (eV1 e p) (eV2 e p) (edrange v e p) (vm v) i j) (v j) := by
  refine time_by_speed_of nn i j hi t0 v (fun w => edrange w e p) _ _ ?_ (ecum_by_speed nn i j hi v e p)
  intro k hk
  have h1 := hv k (by omega)
  have h2 := hv (k + 1) hk
  unfold vm
  positivity

/-- At constant speed and power the range is the speed times the energy used over the power. -/
theorem erange_constant_partial (r0 c q : ℝ) (v e p : ℕ → ℝ) (i : ℕ) (hv : ∀ k ≤ i, v k = c) (hp : ∀ k ≤ i, p k = q) :
    rangeOut r0 (edrange v e p) i = r0 + c * ((e i - e 0) / q * 3600) := by
  rw [rangeOut_eq, cum_edrange]
  simp only [ebreg, hv i le_rfl, hv 0 (by omega), hp i le_rfl, hp 0 (by omega)]
  ring

/-- Without any use of energy the range changes as soon as the power changes. -/
theorem erange_no_energy_violated : ∃ v e p : ℕ → ℝ, (∀ k, 0 < v k) ∧ (∀ k, 0 < p k) ∧ (∀ k, e k = e 0) ∧
    rangeOut 0 (edrange v e p) 1 ≠ 0 := by
  refine ⟨fun _ => 1, fun _ => 1, fun k => if k = 0 then 2 else 1, by intro; norm_num, ?_, fun _ => rfl, ?_⟩
  · intro k; dsimp only; split <;> norm_num
  · rw [rangeOut_eq, cum_edrange]
    norm_num [ebreg]

/-- Energy is used, and the range falls, when the power rises. -/
theorem erange_backwards_violated : ∃ v e p : ℕ → ℝ, (∀ k, 0 < v k) ∧ (∀ k, 0 < p k) ∧ e 0 < e 1 ∧
    rangeOut 0 (edrange v e p) 1 < 0 := by
  refine ⟨fun _ => 1, fun k => if k = 0 then 2 else 3, fun k => if k = 0 then 1 else 2, by intro; norm_num, ?_, ?_, ?_⟩
  · intro k; dsimp only; split <;> norm_num
  · norm_num
  · rw [rangeOut_eq, cum_edrange]
    norm_num [ebreg]

/-- Simple cruise: the partials by speed and time. -/
theorem distance_by_speed (r0 : ℝ) (v t : ℕ → ℝ) (i j : ℕ) :
    HasDerivAt (fun x => distance r0 (update v j x) t i) (distBySpeed t i j) (v j) := by
  unfold distance distBySpeed
  by_cases h : i = j
  · subst h
    rw [if_pos rfl]
    simp only [update_self]
    exact (((hasDerivAt_id (v i)).mul_const (t i - t 0)).const_add r0).congr_deriv (by simp)
  · rw [if_neg h]
    simp only [update_of_ne h]
    exact hasDerivAt_const _ _

theorem distance_by_time (r0 : ℝ) (v t : ℕ → ℝ) (i j : ℕ) :
    HasDerivAt (fun x => distance r0 v (update t j x) i) (distByTime v i j) (t j) := by
  unfold distance distByTime
  by_cases h : i = j
  · subst h
    rw [if_pos rfl]
    by_cases h0 : i = 0
    · subst h0
      simp only [update_self, if_true, sub_self, mul_zero]
      exact hasDerivAt_const _ _
    · rw [if_neg h0]
      simp only [update_self, update_of_ne (Ne.symm h0)]
      exact ((((hasDerivAt_id (t i)).sub_const (t 0)).const_mul (v i)).const_add r0).congr_deriv (by simp)
  · rw [if_neg h]
    by_cases h0 : j = 0
    · subst h0
      rw [if_pos rfl]
      simp only [update_self, update_of_ne h]
      exact ((((hasDerivAt_id (t 0)).const_sub (t i)).const_mul (v i)).const_add r0).congr_deriv (by simp)
    · rw [if_neg h0]
      simp only [update_of_ne h, update_of_ne (Ne.symm h0)]
      exact hasDerivAt_const _ _

/-- The declared partial by the initial distance is right at the first node only. -/
theorem distance_by_start_partial (r0 : ℝ) (v t : ℕ → ℝ) :
    HasDerivAt (fun x => distance x v t 0) (distByStart 0) r0 := by
  unfold distance distByStart
  exact (hasDerivAt_id r0).add_const _

/-- At every other node the partial is one, and zero is declared. -/
theorem distance_by_start_violated (r0 : ℝ) (v t : ℕ → ℝ) (i : ℕ) (hi : i ≠ 0) :
    HasDerivAt (fun x => distance x v t i) 1 r0 ∧ ¬ HasDerivAt (fun x => distance x v t i) (distByStart i) r0 := by
  have h : HasDerivAt (fun x => distance x v t i) 1 r0 := (hasDerivAt_id r0).add_const _
  refine ⟨h, fun h' => ?_⟩
  have := h.unique h'
  unfold distByStart at this
  rw [if_neg hi] at this
  exact one_ne_zero this

/-- The distance of simple cruise depends on the speed of its own node only, not on the speeds flown before. -/
theorem distance_history_violated : ∃ v t : ℕ → ℝ, (∀ k, 0 < v k) ∧ t 0 < t 1 ∧ t 1 < t 2 ∧
    distance 0 v t 2 < distance 0 v t 1 := by
  refine ⟨fun k => if k = 1 then 10 else 1, fun k => k, ?_, by norm_num, by norm_num, by norm_num [distance]⟩
  intro k; dsimp only; split <;> norm_num

example : HasDerivAt (fun x => rangeOut 0 (edrange (fun _ => 1) (fun k => k) (update (fun _ => 2) 1 x)) 1)
    (jacRange 2 (eP1 (fun _ => 1) (fun k => k) (fun _ => 2)) (eP2 (fun _ => 1) (fun k => k) (fun _ => 2)) 1 1) 2 :=
  erange_by_power 2 1 1 (by norm_num) 0 _ _ (fun _ => 2) (by norm_num)

end Verif.Cruise
