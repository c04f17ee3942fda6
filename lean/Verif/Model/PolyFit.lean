import Verif.Model.PyVal
import Mathlib.Data.Real.Basic
import Mathlib.Algebra.BigOperators.Fin

/-!
# The polynomial through the altitudes of the ascent

aviary/mission/two_dof/polynomial_fit.py. Real numbers replace floats.
-/

namespace Verif.PolyFit
open Finset

/-- `a0 + a1 * x + a2 * x**2 + a3 * x**3`, aviary/mission/two_dof/polynomial_fit.py:68-71, 87, 106, 110. -/
def cubic (a : Fin 4 → ℝ) (x : ℝ) : ℝ := a 0 + a 1 * x + a 2 * x ^ 2 + a 3 * x ^ 3

/-- `d_error__d_Y_computed` at one point, aviary/mission/two_dof/polynomial_fit.py:93. -/
def dErr (a : Fin 4 → ℝ) (x y : ℝ) : ℝ := 2 * (cubic a x - y)

/-- `d_Y_computed__d_a…` at one point, aviary/mission/two_dof/polynomial_fit.py:95-98. -/
def dY (k : Fin 4) (x : ℝ) : ℝ :=
  match k with
  | 0 => 1
  | 1 => x
  | 2 => x ^ 2
  | 3 => x ^ 3

/-- `residuals['A']`, aviary/mission/two_dof/polynomial_fit.py:93-103. -/
def resA {n : ℕ} (x y : Fin n → ℝ) (a : Fin 4 → ℝ) (k : Fin 4) : ℝ := ∑ i, dErr a (x i) (y i) * dY k (x i)

/-- `residuals['h_init_gear']` and `residuals['h_init_flaps']`, aviary/mission/two_dof/polynomial_fit.py:105-111. -/
def resH (a : Fin 4 → ℝ) (t h : ℝ) : ℝ := cubic a t - h

/-- `trimseq` of numpy, which `polynomial.convert()` ends with: zeros at the end are dropped, but one coefficient is kept. Called at
aviary/mission/two_dof/polynomial_fit.py:56. -/
noncomputable def trim (l : List ℝ) : List ℝ :=
  open Classical in
  match l.reverse.dropWhile (fun c => decide (c = 0)) with
  | [] => l.take 1
  | r => r.reverse

/-- The outputs, aviary/mission/two_dof/polynomial_fit.py:58-71. -/
structure Out where
  a : Fin 4 → ℝ
  gear : ℝ
  flaps : ℝ

/-- `solve_nonlinear` with the coefficients of the fit: they are unpacked into four names after trimming.
aviary/mission/two_dof/polynomial_fit.py:48-71. -/
noncomputable def solve (fit : Fin 4 → ℝ) (tGear tFlaps : ℝ) : Except Err Out :=
  match trim [fit 0, fit 1, fit 2, fit 3] with
  | [a0, a1, a2, a3] =>
    let a : Fin 4 → ℝ := ![a0, a1, a2, a3]
    .ok ⟨a, cubic a tGear, cubic a tFlaps⟩
  | _ => .error .valueError

end Verif.PolyFit
