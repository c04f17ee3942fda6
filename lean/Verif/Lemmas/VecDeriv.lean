import Verif.Lemmas.CompDeriv
import Mathlib.Algebra.BigOperators.Fin
import Mathlib.Analysis.Calculus.Deriv.Add

/-! Partial derivatives of functions of vectors with any number of entries; no claims are made in
this file. -/

namespace Verif
open Real

/-- `d` is the derivative of `F` at `x` with respect to entry `i`. -/
def PartialAt {n : ℕ} (F : (Fin n → ℝ) → ℝ) (x : Fin n → ℝ) (i : Fin n) (d : ℝ) : Prop :=
  HasDerivAt (fun t => F (Function.update x i t)) d (x i)

theorem hd_congr {f g : ℝ → ℝ} {d e x : ℝ} (h : HasDerivAt f d x) (hf : ∀ t, g t = f t)
    (hd : e = d) : HasDerivAt g e x := by
  have : g = f := funext hf
  rw [this, hd]; exact h

theorem affine_deriv {f : ℝ → ℝ} {d x : ℝ} (h : ∀ t, f t = d * t + f 0) : HasDerivAt f d x := by
  have : f = fun t => d * t + f 0 := funext h
  rw [this]; simpa using ((hasDerivAt_id x).const_mul d).add_const (f 0)

theorem partialAt_entry {n : ℕ} (f : Fin n → ℝ → ℝ) (x : Fin n → ℝ) (i j : Fin n) {d : ℝ}
    (h : HasDerivAt (f i) d (x i)) :
    PartialAt (fun x => f j (x j)) x i (if j = i then d else 0) := by
  unfold PartialAt
  by_cases hji : j = i
  · subst hji
    simpa using h
  · have : (fun t => f j (Function.update x i t j)) = fun _ => f j (x j) := by
      funext t; rw [Function.update_of_ne hji]
    rw [this, if_neg hji]
    exact hasDerivAt_const _ _

theorem partialAt_sum {n : ℕ} (f : Fin n → ℝ → ℝ) (x : Fin n → ℝ) (i : Fin n) {d : ℝ}
    (h : HasDerivAt (f i) d (x i)) :
    PartialAt (fun x => ∑ j, f j (x j)) x i d := by
  unfold PartialAt
  have := HasDerivAt.fun_sum (u := Finset.univ) (A := fun j t => f j (Function.update x i t j))
    (A' := fun j => if j = i then d else 0) (x := x i) (fun j _ => partialAt_entry f x i j h)
  simpa using this

theorem PartialAt.comp {n : ℕ} {F : (Fin n → ℝ) → ℝ} {x : Fin n → ℝ} {i : Fin n} {d g' : ℝ}
    {g : ℝ → ℝ} (hF : PartialAt F x i d) (hg : HasDerivAt g g' (F x)) :
    PartialAt (fun x => g (F x)) x i (g' * d) := by
  unfold PartialAt at *
  have hx : F (Function.update x i (x i)) = F x := by rw [Function.update_eq_self]
  exact HasDerivAt.comp (x i) (by rw [hx]; exact hg) hF

theorem PartialAt.unique {n : ℕ} {F : (Fin n → ℝ) → ℝ} {x : Fin n → ℝ} {i : Fin n} {d e : ℝ}
    (h : PartialAt F x i d) (h' : PartialAt F x i e) : d = e := HasDerivAt.unique h h'

end Verif
