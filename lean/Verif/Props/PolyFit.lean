import Verif.Model.PolyFit
import Mathlib.LinearAlgebra.Vandermonde
import Mathlib.LinearAlgebra.FiniteDimensional.Lemmas
import Mathlib.Analysis.Calculus.Deriv.Add
import Mathlib.Analysis.Calculus.Deriv.Mul
import Mathlib.Analysis.Calculus.Deriv.Pow
import Mathlib.Analysis.Calculus.LocalExtr.Basic
import Mathlib.Tactic.FinCases
import Mathlib.Tactic.LinearCombination
import Mathlib.Tactic.FieldSimp

/-!
# C145: the polynomial through the altitudes of the ascent
-/

namespace Verif.PolyFit
open Finset

/-- The sum of the squares of the errors. -/
def err {n : ℕ} (x y : Fin n → ℝ) (a : Fin 4 → ℝ) : ℝ := ∑ i, (cubic a (x i) - y i) ^ 2

/-- Four points at different times are given. -/
def FourTimes {n : ℕ} (x : Fin n → ℝ) : Prop := ∃ s : Fin 4 → Fin n, Function.Injective fun j => x (s j)

theorem cubic_add (a b : Fin 4 → ℝ) (x : ℝ) : cubic (a + b) x = cubic a x + cubic b x := by
  simp only [cubic, Pi.add_apply]; ring

theorem cubic_sub (a b : Fin 4 → ℝ) (x : ℝ) : cubic (a - b) x = cubic a x - cubic b x := by
  simp only [cubic, Pi.sub_apply]; ring

theorem cubic_smul (c : ℝ) (a : Fin 4 → ℝ) (x : ℝ) : cubic (c • a) x = c * cubic a x := by
  simp only [cubic, Pi.smul_apply, smul_eq_mul]; ring

theorem cubic_sum (a : Fin 4 → ℝ) (x : ℝ) : cubic a x = ∑ k, a k * dY k x := by
  rw [Fin.sum_univ_four]; simp [cubic, dY]

theorem dY_pow (k : Fin 4) (x : ℝ) : dY k x = x ^ (k : ℕ) := by
  fin_cases k <;> simp [dY]

/-- The residuals of the coefficients are the derivatives of the sum of squared errors. -/
theorem resA_gradient {n : ℕ} (x y : Fin n → ℝ) (a : Fin 4 → ℝ) (k : Fin 4) :
    HasDerivAt (fun t => err x y (Function.update a k t)) (resA x y a k) (a k) := by
  have h1 : ∀ i, HasDerivAt (fun t => cubic (Function.update a k t) (x i)) (dY k (x i)) (a k) := by
    intro i
    have e : (fun t => cubic (Function.update a k t) (x i)) = fun t => cubic a (x i) + (t - a k) * dY k (x i) := by
      funext t
      fin_cases k <;> simp [cubic, dY, Function.update] <;> ring
    rw [e]
    simpa using (((hasDerivAt_id' (a k)).sub_const (a k)).mul_const (dY k (x i))).const_add (cubic a (x i))
  have h2 : ∀ i ∈ Finset.univ, HasDerivAt (fun t => (cubic (Function.update a k t) (x i) - y i) ^ 2)
      (dErr a (x i) (y i) * dY k (x i)) (a k) := by
    intro i _
    have := ((h1 i).sub_const (y i)).fun_pow 2
    refine this.congr_deriv ?_
    simp [dErr]
  have := HasDerivAt.fun_sum h2
  simpa [err, resA] using this

/-- The error of other coefficients is that of `a`, a part linear in the residuals, and a sum of squares. -/
theorem err_expand {n : ℕ} (x y : Fin n → ℝ) (a b : Fin 4 → ℝ) :
    err x y b = err x y a + ∑ k, resA x y a k * (b k - a k) + ∑ i, cubic (b - a) (x i) ^ 2 := by
  have h : ∑ k, resA x y a k * (b k - a k) = ∑ i, dErr a (x i) (y i) * cubic (b - a) (x i) := by
    simp only [resA, Finset.sum_mul]
    rw [Finset.sum_comm]
    refine Finset.sum_congr rfl fun i _ => ?_
    rw [cubic_sum, Finset.mul_sum]
    refine Finset.sum_congr rfl fun k _ => ?_
    simp only [Pi.sub_apply]; ring
  rw [h, err, err, ← Finset.sum_add_distrib, ← Finset.sum_add_distrib]
  refine Finset.sum_congr rfl fun i _ => ?_
  rw [cubic_sub, dErr]; ring

/-- The residuals vanish exactly for the coefficients of least squared error. -/
theorem resA_zero_iff {n : ℕ} (x y : Fin n → ℝ) (a : Fin 4 → ℝ) :
    (∀ k, resA x y a k = 0) ↔ ∀ b, err x y a ≤ err x y b := by
  constructor
  · intro h b
    rw [err_expand x y a b]
    have h1 : ∑ k, resA x y a k * (b k - a k) = 0 := Finset.sum_eq_zero fun k _ => by rw [h k, zero_mul]
    have h2 : 0 ≤ ∑ i, cubic (b - a) (x i) ^ 2 := Finset.sum_nonneg fun i _ => sq_nonneg _
    linarith
  · intro h k
    have hm : IsLocalMin (fun t => err x y (Function.update a k t)) (a k) := by
      refine Filter.Eventually.of_forall fun t => ?_
      simpa using h (Function.update a k t)
    exact hm.hasDerivAt_eq_zero (resA_gradient x y a k)

theorem cubic_zero_of_roots (c : Fin 4 → ℝ) (t : Fin 4 → ℝ) (ht : Function.Injective t) (h : ∀ j, cubic c (t j) = 0) : c = 0 := by
  refine Matrix.eq_zero_of_forall_index_sum_pow_mul_eq_zero ht fun j => ?_
  rw [← h j, cubic_sum]
  refine Finset.sum_congr rfl fun k _ => ?_
  rw [dY_pow, mul_comm]

/-- With four different times at most one set of coefficients solves the component. -/
theorem resA_unique {n : ℕ} (x y : Fin n → ℝ) (hx : FourTimes x) (a b : Fin 4 → ℝ) (ha : ∀ k, resA x y a k = 0)
    (hb : ∀ k, resA x y b k = 0) : a = b := by
  obtain ⟨s, hs⟩ := hx
  have h1 := err_expand x y a b
  have h0 : ∑ k, resA x y a k * (b k - a k) = 0 := Finset.sum_eq_zero fun k _ => by rw [ha k, zero_mul]
  have h2 := (resA_zero_iff x y b).1 hb a
  have hz : ∑ i, cubic (b - a) (x i) ^ 2 = 0 := by
    have : 0 ≤ ∑ i, cubic (b - a) (x i) ^ 2 := Finset.sum_nonneg fun i _ => sq_nonneg _
    linarith
  have hi : ∀ i, cubic (b - a) (x i) = 0 := by
    intro i
    have := (Finset.sum_eq_zero_iff_of_nonneg (fun i _ => sq_nonneg (cubic (b - a) (x i)))).1 hz i (Finset.mem_univ i)
    exact pow_eq_zero_iff two_ne_zero |>.1 this
  have := cubic_zero_of_roots (b - a) (fun j => x (s j)) hs fun j => hi _
  exact (sub_eq_zero.1 this).symm

/-- With four different times such coefficients exist. -/
theorem resA_exists {n : ℕ} (x y : Fin n → ℝ) (hx : FourTimes x) : ∃ a, ∀ k, resA x y a k = 0 := by
  let L : (Fin 4 → ℝ) →ₗ[ℝ] (Fin 4 → ℝ) :=
    { toFun := fun a k => resA x (fun _ => 0) a k
      map_add' := by
        intro a b; funext k
        simp only [resA, dErr, cubic_add, Pi.add_apply, ← Finset.sum_add_distrib]
        exact Finset.sum_congr rfl fun i _ => by ring
      map_smul' := by
        intro c a; funext k
        simp only [resA, dErr, cubic_smul, Pi.smul_apply, smul_eq_mul, RingHom.id_apply, Finset.mul_sum]
        exact Finset.sum_congr rfl fun i _ => by ring }
  have hinj : Function.Injective L := by
    rw [injective_iff_map_eq_zero]
    intro a ha
    refine resA_unique x (fun _ => 0) hx a 0 (fun k => congrFun ha k) fun k => ?_
    simp [resA, dErr, cubic]
  obtain ⟨a, ha⟩ := LinearMap.injective_iff_surjective.1 hinj (fun k => ∑ i, 2 * y i * dY k (x i))
  refine ⟨a, fun k => ?_⟩
  have h := congrFun ha k
  have : resA x y a k = L a k - ∑ i, 2 * y i * dY k (x i) := by
    change _ = resA x (fun _ => 0) a k - _
    simp only [resA, dErr, ← Finset.sum_sub_distrib]
    exact Finset.sum_congr rfl fun i _ => by ring
  rw [this, h, sub_self]

/-- Altitudes that lie on a cubic are met exactly, so the altitudes at the times of gear and flaps are those of the cubic. -/
theorem resA_exact {n : ℕ} (x : Fin n → ℝ) (hx : FourTimes x) (c a : Fin 4 → ℝ) :
    (∀ k, resA x (fun i => cubic c (x i)) a k = 0) ↔ a = c := by
  have hc : ∀ k, resA x (fun i => cubic c (x i)) c k = 0 := by intro k; simp [resA, dErr]
  exact ⟨fun h => resA_unique x _ hx a c h hc, fun h => h ▸ hc⟩

example : FourTimes (fun i : Fin 6 => (i : ℝ)) :=
  ⟨Fin.castLE (by norm_num), fun i j h => by
    have : ((Fin.castLE (by norm_num : 4 ≤ 6) i : Fin 6) : ℝ) = ((Fin.castLE (by norm_num : 4 ≤ 6) j : Fin 6) : ℝ) := h
    simpa [Fin.ext_iff] using this⟩

/-- The errors of the fit add up to zero, and so do the errors weighted with the times. -/
theorem errors_balance {n : ℕ} (x y : Fin n → ℝ) (a : Fin 4 → ℝ) (h : ∀ k, resA x y a k = 0) :
    ∑ i, cubic a (x i) = ∑ i, y i ∧ ∑ i, x i * cubic a (x i) = ∑ i, x i * y i := by
  have h0 := h 0
  have h1 := h 1
  simp only [resA, dErr, dY] at h0 h1
  constructor
  · rw [← sub_eq_zero, ← Finset.sum_sub_distrib]
    have : ∑ i, 2 * (cubic a (x i) - y i) * 1 = 2 * ∑ i, (cubic a (x i) - y i) := by
      rw [Finset.mul_sum]; exact Finset.sum_congr rfl fun i _ => by ring
    rw [this] at h0
    linarith
  · rw [← sub_eq_zero, ← Finset.sum_sub_distrib]
    have : ∑ i, 2 * (cubic a (x i) - y i) * x i = 2 * ∑ i, (x i * cubic a (x i) - x i * y i) := by
      rw [Finset.mul_sum]; exact Finset.sum_congr rfl fun i _ => by ring
    rw [this] at h1
    linarith

/-! ## The values that are computed -/

theorem trim_ne {a0 a1 a2 a3 : ℝ} (h : a3 ≠ 0) : trim [a0, a1, a2, a3] = [a0, a1, a2, a3] := by
  simp [trim, h]

theorem trim_length_le {l : List ℝ} (hl : l ≠ []) : (trim (l ++ [0])).length ≤ l.length := by
  unfold trim
  rw [List.reverse_append]
  have h1 : ([0].reverse ++ l.reverse : List ℝ).dropWhile (fun c => decide (c = 0)) = l.reverse.dropWhile (fun c => decide (c = 0)) := by
    simp
  rw [h1]
  split
  · have : 0 < l.length := List.length_pos_iff.2 hl
    simp; omega
  · rw [List.length_reverse]
    exact (List.dropWhile_sublist _).length_le.trans (by simp)

/-- The component is solved exactly when the last coefficient of the fit is not zero; then all residuals vanish. -/
theorem solve_iff {n : ℕ} (x y : Fin n → ℝ) (fit : Fin 4 → ℝ) (hf : ∀ b, err x y fit ≤ err x y b) (tg tf : ℝ) :
    (fit 3 ≠ 0 → ∃ o, solve fit tg tf = .ok o ∧ o.a = fit ∧ (∀ k, resA x y o.a k = 0) ∧ resH o.a tg o.gear = 0 ∧ resH o.a tf o.flaps = 0) ∧
      (fit 3 = 0 → solve fit tg tf = .error .valueError) := by
  constructor
  · intro h
    have e : (![fit 0, fit 1, fit 2, fit 3] : Fin 4 → ℝ) = fit := by funext k; fin_cases k <;> rfl
    refine ⟨⟨fit, cubic fit tg, cubic fit tf⟩, ?_, rfl, (resA_zero_iff x y fit).2 hf, by simp [resH], by simp [resH]⟩
    simp only [solve, trim_ne h, e]
  · intro h
    have hl := trim_length_le (l := [fit 0, fit 1, fit 2]) (by simp)
    simp only [List.cons_append, List.nil_append] at hl
    unfold solve
    rw [h]
    split
    · rename_i ht
      rw [ht] at hl; simp at hl
    · rfl

/-- An ascent at altitude zero, as in a first guess, cannot be fitted: only one coefficient is left to unpack. -/
theorem zero_altitude_violated {n : ℕ} (x : Fin n → ℝ) (hx : FourTimes x) (fit : Fin 4 → ℝ)
    (hf : ∀ b, err x (fun _ => 0) fit ≤ err x (fun _ => 0) b) (tg tf : ℝ) :
    fit = 0 ∧ solve fit tg tf = .error .valueError := by
  have h0 : fit = 0 := by
    have := (resA_exact x hx 0 fit).1 (by simpa [cubic] using (resA_zero_iff x (fun _ => 0) fit).2 hf)
    exact this
  exact ⟨h0, (solve_iff x (fun _ => 0) fit hf tg tf).2 (by rw [h0]; rfl)⟩

end Verif.PolyFit
