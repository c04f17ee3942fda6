import Verif.Lemmas.VecDeriv
import Mathlib.Analysis.Calculus.Deriv.Prod
import Mathlib.Analysis.Calculus.FDeriv.Add
import Mathlib.Analysis.Calculus.FDeriv.Prod
import Mathlib.Analysis.Calculus.Deriv.Comp

/-! Tables of two variables with their derivatives, and derivatives along curves; no claims are made
in this file. -/

namespace Verif

/-- An `InterpND` object: its value and its two derivatives at every point.  The interpolation
itself belongs to OpenMDAO; the tables of the code are arbitrary objects of this type here. -/
structure Tab where
  val : ℝ → ℝ → ℝ
  d1 : ℝ → ℝ → ℝ
  d2 : ℝ → ℝ → ℝ

/-- The derivatives which the table returns are those of its value at the point. -/
def Tab.DiffAt (T : Tab) (x y : ℝ) : Prop :=
  HasFDerivAt (fun p : ℝ × ℝ => T.val p.1 p.2)
    (T.d1 x y • ContinuousLinearMap.fst ℝ ℝ ℝ + T.d2 x y • ContinuousLinearMap.snd ℝ ℝ ℝ) (x, y)

/-- The derivative of a function of two variables along every curve through the point. -/
def Curve2 (F : ℝ → ℝ → ℝ) (x y dx dy : ℝ) : Prop :=
  ∀ (f g : ℝ → ℝ) (f' g' t : ℝ), f t = x → g t = y → HasDerivAt f f' t → HasDerivAt g g' t →
    HasDerivAt (fun s => F (f s) (g s)) (dx * f' + dy * g') t

/-- The derivative of a function of three variables along every curve through the point. -/
def Curve3 (F : ℝ → ℝ → ℝ → ℝ) (x y z dx dy dz : ℝ) : Prop :=
  ∀ (f g h : ℝ → ℝ) (f' g' h' t : ℝ), f t = x → g t = y → h t = z →
    HasDerivAt f f' t → HasDerivAt g g' t → HasDerivAt h h' t →
    HasDerivAt (fun s => F (f s) (g s) (h s)) (dx * f' + dy * g' + dz * h') t

theorem Tab.DiffAt.curve {T : Tab} {x y : ℝ} (h : T.DiffAt x y) :
    Curve2 T.val x y (T.d1 x y) (T.d2 x y) := by
  intro f g f' g' t hf hg df dg
  subst hf; subst hg
  have := HasFDerivAt.comp_hasDerivAt (f := fun s => (f s, g s)) t
    (show HasFDerivAt (fun p : ℝ × ℝ => T.val p.1 p.2) _ (f t, g t) from h) (df.prodMk dg)
  exact hd_congr this (fun s => rfl) (by simp)

end Verif
