import Mathlib.Analysis.SpecialFunctions.Log.Basic
import Mathlib.Analysis.SpecialFunctions.Sqrt
import Mathlib.Analysis.SpecialFunctions.Trigonometric.Basic
import Mathlib.Algebra.BigOperators.Fin

/-!
# Ramps, speed constraints, the fitted climb profile and the tip speed limit

Real numbers replace floats.
-/

namespace Verif.Ramps
open Real

/-! ## `TimeRamp`, aviary/subsystems/aerodynamics/gasp_based/common.py -/

open Classical in
/-- `np.searchsorted(a, x)` (side left) called at aviary/subsystems/aerodynamics/gasp_based/common.py:160: binary
search between `l` and `r`; the first argument bounds the number of steps. -/
noncomputable def search (a : ℕ → ℝ) (x : ℝ) : ℕ → ℕ → ℕ → ℕ
  | 0, l, _ => l
  | k + 1, l, r =>
    if l < r then
      let m := (l + r) / 2
      if a m < x then search a x k (m + 1) r else search a x k l m
    else l

/-- `i1` (for `x = t_init`) and `i2` (for `x = t_init + duration`) with `n` nodes,
aviary/subsystems/aerodynamics/gasp_based/common.py:159-162. -/
noncomputable def sorted (a : ℕ → ℝ) (x : ℝ) (n : ℕ) : ℕ := search a x n 0 n

/-- Inputs of `TimeRamp` for one row of `x`, aviary/subsystems/aerodynamics/gasp_based/common.py:131-142. -/
structure Ramp where
  n : ℕ
  t : ℕ → ℝ
  x : ℕ → ℝ
  t0 : ℝ
  d : ℝ

/-- aviary/subsystems/aerodynamics/gasp_based/common.py:161 -/
noncomputable def Ramp.i1 (r : Ramp) : ℕ := sorted r.t r.t0 r.n
/-- aviary/subsystems/aerodynamics/gasp_based/common.py:162 -/
noncomputable def Ramp.i2 (r : Ramp) : ℕ := sorted r.t (r.t0 + r.d) r.n
/-- `scale` at node `i`, aviary/subsystems/aerodynamics/gasp_based/common.py:165-166. -/
noncomputable def Ramp.scale (r : Ramp) (i : ℕ) : ℝ := (r.t i - r.t0) * (1 / r.d)

/-- Entry `i` of `y` for `ramp_up`, aviary/subsystems/aerodynamics/gasp_based/common.py:168-171: the last assignment
to an entry counts. -/
noncomputable def Ramp.up (r : Ramp) (i : ℕ) : ℝ :=
  if r.i1 ≤ i ∧ i < r.i2 then r.scale i * r.x i else if r.i2 ≤ i then r.x i else 0

/-- Entry `i` of `y` without `ramp_up`, aviary/subsystems/aerodynamics/gasp_based/common.py:172-175. -/
noncomputable def Ramp.down (r : Ramp) (i : ℕ) : ℝ :=
  if r.i1 ≤ i ∧ i < r.i2 then (1 - r.scale i) * r.x i else if r.i2 ≤ i then 0 else r.x i

/-- Entries of the partials of `up` at node `i`: by `x`, `t_curr`, `duration`, `t_init`,
aviary/subsystems/aerodynamics/gasp_based/common.py:192-209. -/
noncomputable def Ramp.jUp (r : Ramp) (i : ℕ) : ℝ × ℝ × ℝ × ℝ :=
  if r.i1 ≤ i ∧ i < r.i2 then
    (r.scale i, r.x i * (1 / r.d), r.x i * (r.t i - r.t0) * (-1 / r.d ^ 2), r.x i * -(1 / r.d))
  else if r.i2 ≤ i then (1, 0, 0, 0) else (0, 0, 0, 0)

/-- Entries of the partials of `down` at node `i`: by `x`, `t_curr`, `duration`, `t_init`,
aviary/subsystems/aerodynamics/gasp_based/common.py:192-225. -/
noncomputable def Ramp.jDown (r : Ramp) (i : ℕ) : ℝ × ℝ × ℝ × ℝ :=
  if r.i1 ≤ i ∧ i < r.i2 then
    (1 - r.scale i, r.x i * -(1 / r.d), r.x i * (r.t i - r.t0) * (1 / r.d ^ 2), r.x i * (1 / r.d))
  else if r.i2 ≤ i then (0, 0, 0, 0) else (1, 0, 0, 0)

/-! ## `TanhRampComp` -/

/-- `tanh_term`, aviary/subsystems/aerodynamics/gasp_based/common.py:357. -/
noncomputable def tanhTerm (t t0 d : ℝ) : ℝ := tanh (2 * π * (t - t0) / d - π)

/-- Entry of the output, aviary/subsystems/aerodynamics/gasp_based/common.py:356-358. -/
noncomputable def tanhRamp (t t0 d vi vf : ℝ) : ℝ := 0.5 * (vf - vi) * (1 + tanhTerm t t0 d) + vi

/-- `omtanh2`, aviary/subsystems/aerodynamics/gasp_based/common.py:373. -/
noncomputable def omtanh2 (t t0 d : ℝ) : ℝ := 1 - tanhTerm t t0 d ^ 2
/-- Entry by the time, aviary/subsystems/aerodynamics/gasp_based/common.py:375, 380. -/
noncomputable def jTime (t t0 d vi vf : ℝ) : ℝ := 0.5 * (vf - vi) * (omtanh2 t t0 d * 2 * π / d)
/-- Entry by the start of the ramp, aviary/subsystems/aerodynamics/gasp_based/common.py:376, 381. -/
noncomputable def jInit (t t0 d vi vf : ℝ) : ℝ := 0.5 * (vf - vi) * -(omtanh2 t t0 d * 2 * π / d)
/-- Entry by the duration, aviary/subsystems/aerodynamics/gasp_based/common.py:378, 382. -/
noncomputable def jDur (t t0 d vi vf : ℝ) : ℝ :=
  0.5 * (vf - vi) * (omtanh2 t t0 d * (-2 * π * (t - t0) / d ^ 2))
/-- Entry by the initial value, aviary/subsystems/aerodynamics/gasp_based/common.py:383. -/
noncomputable def jVi (t t0 d : ℝ) : ℝ := -0.5 * (1 + tanhTerm t t0 d) + 1
/-- Entry by the final value, aviary/subsystems/aerodynamics/gasp_based/common.py:384. -/
noncomputable def jVf (t t0 d : ℝ) : ℝ := 0.5 * (1 + tanhTerm t t0 d)

/-- `rows` and `cols` of the partials by the initial and final values,
aviary/subsystems/aerodynamics/gasp_based/common.py:302, 308, 331-334, for `nn` nodes and a variable of `size` entries. -/
def rampRows (nn : ℕ) : List ℕ := List.range nn
/-- aviary/subsystems/aerodynamics/gasp_based/common.py:308 -/
def rampCols (nn size : ℕ) : List ℕ := (List.replicate nn (List.range size)).flatten

/-! ## `SpeedConstraints`, aviary/mission/two_dof/ode/constraints/speed_constraints.py -/

/-- Entry `j` (0 or 1) of row `i` of `speed_constraint`,
aviary/mission/two_dof/ode/constraints/speed_constraints.py:65-74. -/
def speedCon (easT machT : ℝ) (eas mach : ℕ → ℝ) (i j : ℕ) : ℝ :=
  if j = 0 then eas i - easT else easT * (mach i - machT)

/-- Entry `k` of the flattened output (`k = 2 i + j`), as addressed by the rows of
aviary/mission/two_dof/ode/constraints/speed_constraints.py:54-62. -/
def speedFlat (easT machT : ℝ) (eas mach : ℕ → ℝ) (k : ℕ) : ℝ := speedCon easT machT eas mach (k / 2) (k % 2)

/-- Declared partials by `EAS`: row, column, value,
aviary/mission/two_dof/ode/constraints/speed_constraints.py:55. -/
def conJEas (nn : ℕ) : List (ℕ × ℕ × ℝ) := (List.range nn).map fun i => (i * 2, i, 1)
/-- Declared partials by the Mach number, aviary/mission/two_dof/ode/constraints/speed_constraints.py:56-62. -/
def conJMach (nn : ℕ) (easT : ℝ) : List (ℕ × ℕ × ℝ) := (List.range nn).map fun i => (i * 2 + 1, i, easT)

/-! ## `PolynomialFit`, aviary/mission/two_dof/polynomial_fit.py -/

/-- `Y_computed` at one point and the heights at the two times,
aviary/mission/two_dof/polynomial_fit.py:87, 106, 110. -/
def cubic (a : Fin 4 → ℝ) (x : ℝ) : ℝ := a 0 + a 1 * x + a 2 * x ^ 2 + a 3 * x ^ 3

/-- `residuals['A'][k]`, aviary/mission/two_dof/polynomial_fit.py:93-103. -/
def resA {n : ℕ} (t h : Fin n → ℝ) (a : Fin 4 → ℝ) (k : Fin 4) : ℝ :=
  ∑ j, 2 * (cubic a (t j) - h j) * (if k = 0 then 1 else if k = 1 then t j else if k = 2 then t j ^ 2 else t j ^ 3)

/-- `residuals['h_init_gear']` and `residuals['h_init_flaps']`, aviary/mission/two_dof/polynomial_fit.py:105-111. -/
def resH (a : Fin 4 → ℝ) (x out : ℝ) : ℝ := cubic a x - out

/-! ## `TipSpeed`, aviary/subsystems/propulsion/propeller/propeller_performance.py -/

/-- OpenMDAO's `KSfunction.compute` of two values with its default `rho = 50` (external), called at
aviary/subsystems/propulsion/propeller/propeller_performance.py:110-113. -/
noncomputable def ks (a b : ℝ) : ℝ := 1 / 50 * log (exp (50 * a) + exp (50 * b))

/-- `KSfunction.derivatives`: weight of the first value, used at
aviary/subsystems/propulsion/propeller/propeller_performance.py:135. -/
noncomputable def ksW (a b : ℝ) : ℝ := exp (50 * a) / (exp (50 * a) + exp (50 * b))

/-- `tip_speed_mach_limit`, aviary/subsystems/propulsion/propeller/propeller_performance.py:108. -/
noncomputable def machLimit (v s m : ℝ) : ℝ := √((s * m) ^ 2 - v ^ 2)

/-- `propeller_tip_speed_limit`, aviary/subsystems/propulsion/propeller/propeller_performance.py:108-113. -/
noncomputable def tipLimit (v s m tmax : ℝ) : ℝ := -ks (-tmax) (-machLimit v s m)

/-- `propeller_tip_speed`, aviary/subsystems/propulsion/propeller/propeller_performance.py:114. -/
noncomputable def tipSpeed (rpm diam : ℝ) : ℝ := rpm * diam * π / 60

/-- `dKS[:, 1]`, aviary/subsystems/propulsion/propeller/propeller_performance.py:131-135. -/
noncomputable def dks1 (v s m tmax : ℝ) : ℝ := ksW (-machLimit v s m) (-tmax)
/-- `dspeed_dv`, aviary/subsystems/propulsion/propeller/propeller_performance.py:137, 141. -/
noncomputable def jTipV (v s m tmax : ℝ) : ℝ := dks1 v s m tmax * (-v / machLimit v s m)
/-- `dspeed_ds`, aviary/subsystems/propulsion/propeller/propeller_performance.py:138, 142. -/
noncomputable def jTipS (v s m tmax : ℝ) : ℝ := dks1 v s m tmax * (m ^ 2 * s / machLimit v s m)
/-- `dspeed_dmm`, aviary/subsystems/propulsion/propeller/propeller_performance.py:139, 143. -/
noncomputable def jTipM (v s m tmax : ℝ) : ℝ := dks1 v s m tmax * (m * s ^ 2 / machLimit v s m)
/-- `dspeed_dsm`, aviary/subsystems/propulsion/propeller/propeller_performance.py:144. -/
noncomputable def jTipMax (v s m tmax : ℝ) : ℝ := ksW (-tmax) (-machLimit v s m)

end Verif.Ramps
