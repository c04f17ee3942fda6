import Mathlib.Analysis.SpecialFunctions.Trigonometric.InverseDeriv
import Mathlib.Analysis.SpecialFunctions.Trigonometric.Inverse

/-!
# Part of a nacelle outside the fuselage

`aviary/subsystems/geometry/gasp_based/engine.py:8-157`. Real numbers replace floats.
-/

namespace Verif.Nacelle
open Real

/-- aviary/subsystems/geometry/gasp_based/engine.py:8 -/
noncomputable def eps : ℝ := 1 / 20

/-- aviary/subsystems/geometry/gasp_based/engine.py:11-15 -/
noncomputable def f (x : ℝ) : ℝ := 1 - arccos (2 * (1 / 2 - x)) / π

/-- aviary/subsystems/geometry/gasp_based/engine.py:18-22 -/
noncomputable def df (x : ℝ) : ℝ := -2 / sqrt (1 - 4 * (1 / 2 - x) * (1 / 2 - x)) / π

/-- aviary/subsystems/geometry/gasp_based/engine.py:25-29 -/
noncomputable def d2f (x : ℝ) : ℝ :=
  8 * (1 / 2 - x) / sqrt (1 - 4 * (1 / 2 - x) * (1 / 2 - x)) / (1 - 4 * (1 / 2 - x) * (1 / 2 - x)) / π

/-- aviary/subsystems/geometry/gasp_based/engine.py:40-46, coefficients `b1 c1 d1`; `A B C` are value, slope and curvature at `e`. -/
noncomputable def low (A B C e : ℝ) : ℝ × ℝ × ℝ :=
  let d := (A - 1 - e * B + 1 / 2 * e ^ 2 * C) / e ^ 3
  let c := (C - 6 * d * e) / 2
  let b := B - e * C + 3 * d * e ^ 2
  (b, c, d)

/-- aviary/subsystems/geometry/gasp_based/engine.py:32-48 -/
noncomputable def g1 (x : ℝ) : ℝ :=
  let p := low (f eps) (df eps) (d2f eps) eps
  1 + p.1 * x + p.2.1 * x ^ 2 + p.2.2 * x ^ 3

/-- aviary/subsystems/geometry/gasp_based/engine.py:51-60 -/
noncomputable def dg1 (x : ℝ) : ℝ :=
  let p := low (f eps) (df eps) (d2f eps) eps
  p.1 + 2 * p.2.1 * x + 3 * p.2.2 * x ^ 2

/-- aviary/subsystems/geometry/gasp_based/engine.py:71-78, coefficients `b2 c2 d2`. -/
noncomputable def high (A B C e : ℝ) : ℝ × ℝ × ℝ :=
  let d := -(A + B * e + 1 / 2 * C * e ^ 2) / e ^ 3
  let c := (C - 6 * d * (1 - e)) / 2
  let b := B - C * (1 - e) + 3 * d * (1 - e) ^ 2
  (b, c, d)

/-- aviary/subsystems/geometry/gasp_based/engine.py:63-80 -/
noncomputable def g2 (x : ℝ) : ℝ :=
  let p := high (f (1 - eps)) (df (1 - eps)) (d2f (1 - eps)) eps;
  -(p.1 + p.2.1 + p.2.2) + p.1 * x + p.2.1 * x ^ 2 + p.2.2 * x ^ 3

/-- aviary/subsystems/geometry/gasp_based/engine.py:83-93 -/
noncomputable def dg2 (x : ℝ) : ℝ :=
  let p := high (f (1 - eps)) (df (1 - eps)) (d2f (1 - eps)) eps;
  p.1 + 2 * p.2.1 * x + 3 * p.2.2 * x ^ 2

/-- `Err`: part of the model of aviary/subsystems/geometry/gasp_based/engine.py:128-141. -/
inductive Err
  /-- `om.AnalysisError`, aviary/subsystems/geometry/gasp_based/engine.py:139-141, 155-157 -/
  | outOfRange
  /-- The truth value of a numpy array whose length is not one (`ValueError`). -/
  | ambiguous
  deriving DecidableEq

/-- aviary/subsystems/geometry/gasp_based/engine.py:128-141 for one number. -/
noncomputable def value (x : ℝ) : Except Err ℝ :=
  if eps ≤ x ∧ x ≤ 1 - eps then .ok (f x)
  else if 0 ≤ x ∧ x < eps then .ok (g1 x)
  else if x ≤ 1 ∧ 1 - eps < x then .ok (g2 x)
  else .error .outOfRange

/-- aviary/subsystems/geometry/gasp_based/engine.py:145-157 for one number. -/
noncomputable def slope (x : ℝ) : Except Err ℝ :=
  if eps ≤ x ∧ x ≤ 1 - eps then .ok (df x)
  else if 0 ≤ x ∧ x < eps then .ok (dg1 x)
  else if x ≤ 1 ∧ 1 - eps < x then .ok (dg2 x)
  else .error .outOfRange

/-- aviary/subsystems/geometry/gasp_based/engine.py:127-143: the input is an array with one entry per engine type, and python asks for the truth value
of `x >= epsilon`, which numpy gives for arrays of length one only. -/
noncomputable def compute : List ℝ → Except Err (List ℝ)
  | [x] => (value x).map fun y => [y]
  | _ => .error .ambiguous

end Verif.Nacelle
