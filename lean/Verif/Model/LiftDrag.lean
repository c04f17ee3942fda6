import Verif.Lemmas.Curve
import Mathlib.Analysis.SpecialFunctions.Pow.Real

/-! # Lift dependent drag of the FLOPS aerodynamics

aviary/subsystems/aerodynamics/flops_based/lift_dependent_drag.py.  Numbers are real numbers.  The
nodes are independent of one another, so one node is modelled.  The tables and the one dimensional
`lagrange2` interpolation over `A` belong to OpenMDAO and are parameters: a table is any `Tab`, and
the interpolation is any assignment of weights to the five grid points, which is what an
interpolation linear in the tabulated values is. -/

namespace Verif.LiftDrag
open Real

/-- The thirteen tables, aviary/subsystems/aerodynamics/flops_based/lift_dependent_drag.py:982-1020: `AR05table`, `AR1table`, `AR2table`,
`AR4table`, `AR6table` and `ARS07table` to `ARS20table`, in the order of the file. -/
structure Tabs where
  ar05 : Tab
  ar1 : Tab
  ar2 : Tab
  ar4 : Tab
  ar6 : Tab
  s07 : Tab
  s08 : Tab
  s10 : Tab
  s12 : Tab
  s14 : Tab
  s16 : Tab
  s18 : Tab
  s20 : Tab

/-- The weights of `InterpND(method='lagrange2', points=arrA)`, aviary/subsystems/aerodynamics/flops_based/lift_dependent_drag.py:96-98, 105, 113:
`w g a i` is the weight of grid point `i` of the grid `g` at `a` and `dw g a i` its derivative. -/
structure Weights where
  w : (Fin 5 → ℝ) → ℝ → Fin 5 → ℝ
  dw : (Fin 5 → ℝ) → ℝ → Fin 5 → ℝ

/-- The four numbers which `edge_interp` and `inner_interp` return, aviary/subsystems/aerodynamics/flops_based/lift_dependent_drag.py:88, 116.
-/
structure Fc where
  v : ℝ
  dm : ℝ
  dcl : ℝ
  da : ℝ

/-- `den` of `edge_interp`, aviary/subsystems/aerodynamics/flops_based/lift_dependent_drag.py:73. -/
noncomputable def den (A1 A2 F1 F2 A : ℝ) : ℝ := 1 / ((A - A1) * F1 - (A - A2) * F2)

/-- `FCDP` of `edge_interp`, aviary/subsystems/aerodynamics/flops_based/lift_dependent_drag.py:74. -/
noncomputable def edge (A1 A2 F1 F2 A : ℝ) : ℝ := 2 * F1 * F2 * den A1 A2 F1 F2 A

/-- `dFCDP_dA` of `edge_interp`, aviary/subsystems/aerodynamics/flops_based/lift_dependent_drag.py:77. -/
noncomputable def edgeA (A1 A2 F1 F2 A : ℝ) : ℝ := 2 * F1 * F2 * (F2 - F1) * den A1 A2 F1 F2 A ^ 2

/-- `dFCDP_dDEL` of `edge_interp` for one of its two columns, aviary/subsystems/aerodynamics/flops_based/lift_dependent_drag.py:79-86. -/
noncomputable def edgeD (A1 A2 F1 F2 G1 G2 A : ℝ) : ℝ :=
  2 * den A1 A2 F1 F2 A *
    (G1 * (F2 - F1 * F2 * den A1 A2 F1 F2 A * (A - A1))
      + G2 * (F1 + F1 * F2 * den A1 A2 F1 F2 A * (A - A2)))

/-- `edge_interp` for two tables, aviary/subsystems/aerodynamics/flops_based/lift_dependent_drag.py:72-88. -/
noncomputable def edgeInterp (A1 A2 : ℝ) (T1 T2 : Tab) (x y A : ℝ) : Fc where
  v := edge A1 A2 (T1.val x y) (T2.val x y) A
  dm := edgeD A1 A2 (T1.val x y) (T2.val x y) (T1.d1 x y) (T2.d1 x y) A
  dcl := edgeD A1 A2 (T1.val x y) (T2.val x y) (T1.d2 x y) (T2.d2 x y) A
  da := edgeA A1 A2 (T1.val x y) (T2.val x y) A

/-- `inner_interp` for five tables, aviary/subsystems/aerodynamics/flops_based/lift_dependent_drag.py:90-116. -/
noncomputable def innerInterp (W : Weights) (g : Fin 5 → ℝ) (T : Fin 5 → Tab) (x y A : ℝ) : Fc where
  v := ∑ i, W.w g A i * (T i).val x y
  dm := ∑ i, W.w g A i * (T i).d1 x y
  dcl := ∑ i, W.w g A i * (T i).d2 x y
  da := ∑ i, W.dw g A i * (T i).val x y

/-- `arrA` of the subsonic tables, aviary/subsystems/aerodynamics/flops_based/lift_dependent_drag.py:164. -/
noncomputable def gridSub : Fin 5 → ℝ := ![1 / 2, 1, 2, 4, 6]

/-- `arrA` of the lower supersonic tables, aviary/subsystems/aerodynamics/flops_based/lift_dependent_drag.py:208. -/
noncomputable def gridLow : Fin 5 → ℝ := ![7 / 10, 8 / 10, 1, 12 / 10, 14 / 10]

/-- `arrA` of the upper supersonic tables, aviary/subsystems/aerodynamics/flops_based/lift_dependent_drag.py:231. -/
noncomputable def gridHigh : Fin 5 → ℝ := ![12 / 10, 14 / 10, 16 / 10, 18 / 10, 2]

open Classical in
/-- The choice of the tables, aviary/subsystems/aerodynamics/flops_based/lift_dependent_drag.py:143-255: `x` is `DELM`, `y` is `DELCL`. -/
noncomputable def fcdp (T : Tabs) (W : Weights) (x y A : ℝ) : Fc :=
  if x ≤ 75 / 1000 then
    if A < 1 / 2 then edgeInterp (1 / 2) 1 T.ar05 T.ar1 x y A
    else if A < 6 then innerInterp W gridSub ![T.ar05, T.ar1, T.ar2, T.ar4, T.ar6] x y A
    else edgeInterp 4 6 T.ar4 T.ar6 x y A
  else
    if A < 7 / 10 then edgeInterp (7 / 10) (8 / 10) T.s07 T.s08 x y A
    else if A ≤ 14 / 10 then innerInterp W gridLow ![T.s07, T.s08, T.s10, T.s12, T.s14] x y A
    else if A ≤ 2 then innerInterp W gridHigh ![T.s12, T.s14, T.s16, T.s18, T.s20] x y A
    else edgeInterp (18 / 10) 2 T.s18 T.s20 x y A

/-- The inputs of the component, aviary/subsystems/aerodynamics/flops_based/lift_dependent_drag.py:23-36, with the option `gamma`, :17. -/
structure In where
  mach : ℝ
  lift : ℝ
  P : ℝ
  cldes : ℝ
  mdes : ℝ
  sref : ℝ
  AR : ℝ
  cam : ℝ
  sweep : ℝ
  TC : ℝ
  gamma : ℝ

/-- `CL`, aviary/subsystems/aerodynamics/flops_based/lift_dependent_drag.py:137. -/
noncomputable def cl (i : In) : ℝ := 2 * i.lift / (i.sref * i.gamma * i.P * i.mach ^ 2)

/-- `DELCL`, aviary/subsystems/aerodynamics/flops_based/lift_dependent_drag.py:139. -/
noncomputable def delcl (i : In) : ℝ := cl i - i.cldes

/-- `DELM`, aviary/subsystems/aerodynamics/flops_based/lift_dependent_drag.py:140. -/
noncomputable def delm (i : In) : ℝ := i.mach - i.mdes

/-- `A`, aviary/subsystems/aerodynamics/flops_based/lift_dependent_drag.py:141. -/
noncomputable def bigA (i : In) : ℝ := i.AR * i.TC ^ (1 / 3 : ℝ)

/-- The interpolated numbers at the inputs, aviary/subsystems/aerodynamics/flops_based/lift_dependent_drag.py:143-255, 261-264. -/
noncomputable def fc (T : Tabs) (W : Weights) (i : In) : Fc := fcdp T W (delm i) (delcl i) (bigA i)

/-- `DCDP` before the clamp, aviary/subsystems/aerodynamics/flops_based/lift_dependent_drag.py:257. -/
noncomputable def raw (T : Tabs) (W : Weights) (i : In) : ℝ :=
  (fc T W i).v * (1 + i.cam / 10) * bigA i / i.AR

open Classical in
/-- `pressure_drag_coeff`, aviary/subsystems/aerodynamics/flops_based/lift_dependent_drag.py:257-259, 266. -/
noncomputable def drag (T : Tabs) (W : Weights) (i : In) : ℝ :=
  if raw T W i < 0 then 0 else raw T W i

/-- The inputs with respect to which the component gives derivatives.
Part of the model of aviary/subsystems/aerodynamics/flops_based/lift_dependent_drag.py:257-259, 266. -/
inductive Wrt
  | mach | lift | P | sref | AR | TC | cam | sweep | cldes | mdes
  deriving DecidableEq

/-- The input named by `w`.
Part of the model of aviary/subsystems/aerodynamics/flops_based/lift_dependent_drag.py:257-259, 266. -/
def In.get (i : In) : Wrt → ℝ
  | .mach => i.mach | .lift => i.lift | .P => i.P | .sref => i.sref | .AR => i.AR | .TC => i.TC
  | .cam => i.cam | .sweep => i.sweep | .cldes => i.cldes | .mdes => i.mdes

/-- The inputs with the input named by `w` replaced.
Part of the model of aviary/subsystems/aerodynamics/flops_based/lift_dependent_drag.py:257-259, 266. -/
def In.set (i : In) : Wrt → ℝ → In
  | .mach, t => { i with mach := t } | .lift, t => { i with lift := t }
  | .P, t => { i with P := t } | .sref, t => { i with sref := t }
  | .AR, t => { i with AR := t } | .TC, t => { i with TC := t }
  | .cam, t => { i with cam := t } | .sweep, t => { i with sweep := t }
  | .cldes, t => { i with cldes := t } | .mdes, t => { i with mdes := t }

/-- `dDCDP_dFCDP`, aviary/subsystems/aerodynamics/flops_based/lift_dependent_drag.py:296. -/
noncomputable def dFac (i : In) : ℝ := (1 + i.cam / 10) * i.TC ^ (1 / 3 : ℝ)

/-- The partial derivatives before the clamp, aviary/subsystems/aerodynamics/flops_based/lift_dependent_drag.py:280-335. -/
noncomputable def rawPart (T : Tabs) (W : Weights) (i : In) : Wrt → ℝ
  | .mach => dFac i * (fc T W i).dm
      + dFac i * (fc T W i).dcl * (-4 * i.lift / (i.sref * i.gamma * i.P * i.mach ^ 3))
  | .lift => dFac i * (fc T W i).dcl * (2 / (i.sref * i.gamma * i.P * i.mach ^ 2))
  | .P => dFac i * (fc T W i).dcl * (-2 * i.lift / (i.sref * i.gamma * i.P * i.P * i.mach ^ 2))
  | .sref => dFac i * (fc T W i).dcl
      * (-2 * i.lift / (i.sref * i.sref * i.gamma * i.P * i.mach ^ 2))
  | .AR => dFac i * ((fc T W i).da * i.TC ^ (1 / 3 : ℝ))
  | .TC => dFac i * ((fc T W i).da * (1 / 3 * i.AR * i.TC ^ (-2 / 3 : ℝ)))
      + 1 / 3 * (fc T W i).v * (1 + i.cam / 10) * i.TC ^ (-2 / 3 : ℝ)
  | .cam => dFac i * ((fc T W i).da * 0) + (fc T W i).v / 10 * i.TC ^ (1 / 3 : ℝ)
  | .sweep => dFac i * ((fc T W i).da * 0)
  | .cldes => -(dFac i * (fc T W i).dcl)
  | .mdes => -(dFac i * (fc T W i).dm)

open Classical in
/-- `compute_partials`, aviary/subsystems/aerodynamics/flops_based/lift_dependent_drag.py:268-351: the entries of the clamped nodes are zeroed,
:258, 337-351. -/
noncomputable def part (T : Tabs) (W : Weights) (i : In) (w : Wrt) : ℝ :=
  if raw T W i < 0 then 0 else rawPart T W i w

end Verif.LiftDrag
