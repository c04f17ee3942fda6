import Verif.Model.Dict
import Mathlib.Analysis.SpecialFunctions.Log.Basic
import Mathlib.Analysis.SpecialFunctions.Trigonometric.Basic
import Mathlib.Algebra.Order.Floor.Ring

/-! # Model of the smooth functions (aviary/utils/math.py) over ℝ; arrays are modelled elementwise -/

namespace Verif
open Real

/-- `sigmoidX` for an array entry, aviary/utils/math.py:29-42. `mu = 0` raises (lines 26-27). -/
noncomputable def sigmoidArr (x x0 mu : ℝ) : Except Err ℝ :=
  if mu = 0 then .error .valueError
  else .ok (if (x - x0) / mu > -320 then 1 / (1 + exp (-(x - x0) / mu)) else 0)

/-- `sigmoidX` for a scalar, aviary/utils/math.py:43-53: the cut-off tests `(x - x0) * mu`. -/
noncomputable def sigmoidScalar (x x0 mu : ℝ) : Except Err ℝ :=
  if mu = 0 then .error .valueError
  else .ok (if (x - x0) * mu > -320 then 1 / (1 + exp (-(x - x0) / mu)) else 0)

/-- `dSigmoidXdx` for an array entry, aviary/utils/math.py:77-90. -/
noncomputable def dSigmoidArr (x x0 mu : ℝ) : Except Err ℝ :=
  if mu = 0 then .error .valueError
  else .ok (if (x - x0) / mu > -320 then
      let term := exp (-(x - x0) / mu)
      term / mu / ((1 + term) * (1 + term))
    else 0)

/-- `dSigmoidXdx` for a scalar, aviary/utils/math.py:91-99: `dtype` is read before it is assigned. -/
noncomputable def dSigmoidScalar (_x _x0 mu : ℝ) : Except Err ℝ :=
  if mu = 0 then .error .valueError else .error .unboundLocal

/-- aviary/utils/math.py:102-116 -/
noncomputable def smoothMin (x b mu : ℝ) : ℝ := -(1 / mu) * log (exp (-mu * x) + exp (-mu * b))

/-- aviary/utils/math.py:119-134 -/
noncomputable def dSmoothMin (x b mu : ℝ) : ℝ := exp (-mu * x) / (exp (-mu * x) + exp (-mu * b))

/-- aviary/utils/math.py:137-154 -/
noncomputable def smoothMax (x b mu : ℝ) : ℝ :=
  let m := max (mu * x) (mu * b)
  (m + log (exp (mu * x - m) + exp (mu * b - m))) / mu

/-- aviary/utils/math.py:157-175 -/
noncomputable def dSmoothMax (x b mu : ℝ) : ℝ :=
  let m := max (mu * x) (mu * b)
  exp (mu * x - m) / (exp (mu * x - m) + exp (mu * b - m))

/-- aviary/utils/math.py:201-208 -/
noncomputable def sinInt (v : ℝ) : ℝ := v - sin (2 * π * (v + 0.5)) / (2 * π)

/-- aviary/utils/math.py:211-215 -/
noncomputable def dSinInt (v : ℝ) : ℝ := 1 - cos (2 * π * (v + 0.5))

/-- aviary/utils/math.py:178-180 -/
noncomputable def sinInt4 (v : ℝ) : ℝ := sinInt (sinInt (sinInt (sinInt v))) - 0.5

/-- aviary/utils/math.py:183-196 -/
noncomputable def dSinInt4 (v : ℝ) : ℝ :=
  let y0 := sinInt v
  let y1 := sinInt y0
  let y2 := sinInt y1
  dSinInt y2 * dSinInt y1 * dSinInt y0 * dSinInt v

/-- aviary/utils/math.py:218-227, for real `x` -/
noncomputable def smoothIntTanh (x mu : ℝ) : ℝ := (⌊x⌋ : ℝ) + 0.5 * (tanh (mu * (x - ⌊x⌋ - 0.5)) + 1)

/-- aviary/utils/math.py:230-239, for real `x` -/
noncomputable def dSmoothIntTanh (x mu : ℝ) : ℝ := 0.5 * mu * (1 - tanh (mu * (x - ⌊x⌋ - 0.5)) ^ 2)

end Verif
