import Mathlib.Analysis.Calculus.Deriv.Add
import Mathlib.Analysis.Calculus.Deriv.Mul
import Mathlib.Analysis.Calculus.Deriv.Inv
import Mathlib.Analysis.Calculus.Deriv.Pow
import Mathlib.Analysis.Calculus.Deriv.ZPow
import Mathlib.Analysis.SpecialFunctions.Pow.Deriv
import Mathlib.Analysis.SpecialFunctions.Sqrt
import Mathlib.Analysis.SpecialFunctions.ExpDeriv
import Mathlib.Analysis.SpecialFunctions.Log.Deriv
import Mathlib.Analysis.SpecialFunctions.Trigonometric.Deriv
import Mathlib.Analysis.SpecialFunctions.Trigonometric.ArctanDeriv
import Mathlib.Tactic.FieldSimp
import Mathlib.Tactic.Ring
import Mathlib.Tactic.Linarith
import Mathlib.Tactic.Positivity
import Mathlib.Tactic.NormNum

/-! Helper tactics for derivative goals; no claims are made in this file. -/

namespace Verif

theorem hasDerivAt_rpow_const' {f : ℝ → ℝ} {f' x p : ℝ} (hf : HasDerivAt f f' x)
    (h : f x ≠ 0) : HasDerivAt (fun y => f y ^ p) (f' * p * f x ^ (p - 1)) x :=
  hf.rpow_const (Or.inl h)

theorem hasDerivAt_pow' {f : ℝ → ℝ} {f' x : ℝ} (n : ℕ) (hf : HasDerivAt f f' x) :
    HasDerivAt (fun y => f y ^ n) (n * f x ^ (n - 1) * f') x := by
  exact hf.fun_pow n

/-- Builds a `HasDerivAt` proof structurally; leaves the side goals (non-vanishing etc.). -/
macro "deriv_step" : tactic => `(tactic| first
  | with_reducible exact hasDerivAt_const _ _
  | with_reducible exact hasDerivAt_id' _
  | assumption
  | with_reducible apply HasDerivAt.fun_add
  | with_reducible apply HasDerivAt.fun_sub
  | with_reducible apply HasDerivAt.fun_mul
  | with_reducible apply HasDerivAt.fun_div
  | with_reducible apply HasDerivAt.fun_neg
  | with_reducible apply HasDerivAt.fun_inv
  | with_reducible apply hasDerivAt_pow'
  | with_reducible apply hasDerivAt_rpow_const'
  | with_reducible apply HasDerivAt.sqrt
  | with_reducible apply HasDerivAt.exp
  | with_reducible apply HasDerivAt.log
  | with_reducible apply HasDerivAt.sin
  | with_reducible apply HasDerivAt.cos
  | with_reducible apply HasDerivAt.arctan)

theorem hasDerivAt_of_eq {f : ℝ → ℝ} {d e x : ℝ} (h : HasDerivAt f d x) (he : d = e) :
    HasDerivAt f e x := he ▸ h

/-- Turns `HasDerivAt f d x` into side goals plus `computed derivative = d`. -/
macro "deriv_build" : tactic => `(tactic|
  (apply hasDerivAt_of_eq
   on_goal 1 => (repeat' deriv_step)
   all_goals try assumption))

end Verif
