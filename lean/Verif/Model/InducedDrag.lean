import Verif.Lemmas.Curve
import Mathlib.Analysis.SpecialFunctions.Pow.Real
import Mathlib.Analysis.SpecialFunctions.Trigonometric.Basic

/-! # Induced drag and buffet lift of the FLOPS aerodynamics

aviary/subsystems/aerodynamics/flops_based/induced_drag.py and aviary/subsystems/aerodynamics/flops_based/buffet_lift.py.  Numbers are real
numbers.  The nodes are independent of one another, so one node is modelled.  The table of the buffet
lift belongs to OpenMDAO and is a parameter. -/

namespace Verif.InducedDrag
open Real

/-- `scipy.constants.degree`, one degree in radians, aviary/subsystems/aerodynamics/flops_based/induced_drag.py:3, 94 and aviary/subsystems/aerodynamics/flops_based/buffet_lift.py:4, 87. -/
noncomputable def degree : ℝ := π / 180

/-- The inputs, aviary/subsystems/aerodynamics/flops_based/induced_drag.py:24-33, and the options, :16, 18. -/
structure In where
  mach : ℝ
  lift : ℝ
  P : ℝ
  sref : ℝ
  AR : ℝ
  sef : ℝ
  sweep : ℝ
  TR : ℝ
  redux : Bool
  gamma : ℝ

/-- `CL`, aviary/subsystems/aerodynamics/flops_based/induced_drag.py:70. -/
noncomputable def cl (i : In) : ℝ := 2 * i.lift / (i.sref * i.gamma * i.P * i.mach ^ 2)

/-- `span_efficiency_0`, aviary/subsystems/aerodynamics/flops_based/induced_drag.py:72-83. -/
noncomputable def se0 (i : In) : ℝ :=
  if i.redux then 1 + 1 / 10 * i.AR * (4226 / 10000 * √i.AR - 35 / 100 * i.TR - 143 / 1000) else 1

open Classical in
/-- `span_efficiency`, aviary/subsystems/aerodynamics/flops_based/induced_drag.py:85-88. -/
noncomputable def se (i : In) : ℝ := if i.sef ≤ 3 / 10 then se0 i + i.sef else se0 i * i.sef

/-- `TH`, aviary/subsystems/aerodynamics/flops_based/induced_drag.py:96. -/
noncomputable def th (i : In) : ℝ := (1 - i.TR) / (1 + i.TR) / i.AR

/-- `tan_sw`, aviary/subsystems/aerodynamics/flops_based/induced_drag.py:97. -/
noncomputable def tsw (i : In) : ℝ := tan (i.sweep / degree)

/-- `fact3`, aviary/subsystems/aerodynamics/flops_based/induced_drag.py:98, 179. -/
noncomputable def fact3 (ts h : ℝ) : ℝ := 1 + (ts - 3 * h) ^ 2

/-- `fact4`, aviary/subsystems/aerodynamics/flops_based/induced_drag.py:99, 184. -/
noncomputable def fact4 (ts h : ℝ) : ℝ := 1 + (ts + h) ^ 2

/-- `COSA`, aviary/subsystems/aerodynamics/flops_based/induced_drag.py:98. -/
noncomputable def cosA (ts h : ℝ) : ℝ := 1 / √(fact3 ts h)

/-- `COSB`, aviary/subsystems/aerodynamics/flops_based/induced_drag.py:99. -/
noncomputable def cosB (ts h : ℝ) : ℝ := 1 / √(fact4 ts h)

/-- `factA` and `factB`, aviary/subsystems/aerodynamics/flops_based/induced_drag.py:102, 189-190. -/
noncomputable def factC (m c : ℝ) : ℝ := 11 / 10 - m * c

/-- `fact5` and `fact6`, aviary/subsystems/aerodynamics/flops_based/induced_drag.py:102, 191-192. -/
noncomputable def factG (m c : ℝ) : ℝ := 11 / 10 - 11 / 100 / factC m c

/-- `CAYT` of the two cosines, aviary/subsystems/aerodynamics/flops_based/induced_drag.py:100-104, 193. -/
noncomputable def caytC (m a b : ℝ) : ℝ := 1 / 2 * (factG m a / factG m b - 1) ^ 2

/-- `CAYT`, aviary/subsystems/aerodynamics/flops_based/induced_drag.py:96-104. -/
noncomputable def cayt (i : In) : ℝ := caytC i.mach (cosA (tsw i) (th i)) (cosB (tsw i) (th i))

/-- `CDi` without the forward sweep factor, aviary/subsystems/aerodynamics/flops_based/induced_drag.py:90. -/
noncomputable def base (i : In) : ℝ := cl i ^ 2 / (π * i.AR * se i)

open Classical in
/-- `induced_drag_coeff`, aviary/subsystems/aerodynamics/flops_based/induced_drag.py:65-108. -/
noncomputable def drag (i : In) : ℝ :=
  if i.sweep < 0 then base i + cayt i * cl i ^ 2 else base i

/-- The inputs with respect to which the component gives derivatives, aviary/subsystems/aerodynamics/flops_based/induced_drag.py:42-63. -/
inductive Wrt
  | mach | lift | P | AR | sef | sweep | TR | sref
  deriving DecidableEq

/-- The input named by `w`. Part of the model of aviary/subsystems/aerodynamics/flops_based/buffet_lift.py:43-55. -/
def In.get (i : In) : Wrt → ℝ
  | .mach => i.mach | .lift => i.lift | .P => i.P | .AR => i.AR | .sef => i.sef
  | .sweep => i.sweep | .TR => i.TR | .sref => i.sref

/-- The inputs with the input named by `w` replaced.
Part of the model of aviary/subsystems/aerodynamics/flops_based/buffet_lift.py:43-55. -/
def In.set (i : In) : Wrt → ℝ → In
  | .mach, t => { i with mach := t } | .lift, t => { i with lift := t }
  | .P, t => { i with P := t } | .AR, t => { i with AR := t } | .sef, t => { i with sef := t }
  | .sweep, t => { i with sweep := t } | .TR, t => { i with TR := t }
  | .sref, t => { i with sref := t }

/-- `dse0_dAR`, aviary/subsystems/aerodynamics/flops_based/induced_drag.py:119; it is used with the reduction only. -/
noncomputable def dse0AR (i : In) : ℝ :=
  1 / 10 * (4226 / 10000 * (√i.AR + 1 / 2 * i.AR / √i.AR) - 35 / 100 * i.TR - 143 / 1000)

/-- `dse0_dTR`, aviary/subsystems/aerodynamics/flops_based/induced_drag.py:120. -/
noncomputable def dse0TR (i : In) : ℝ := -35 / 1000 * i.AR

/-- The derivatives of `CL`, aviary/subsystems/aerodynamics/flops_based/induced_drag.py:132-135. -/
noncomputable def dcl (i : In) : Wrt → ℝ
  | .lift => 2 / (i.sref * i.gamma * i.P * i.mach ^ 2)
  | .sref => -2 * i.lift / (i.sref ^ 2 * i.gamma * i.P * i.mach ^ 2)
  | .P => -2 * i.lift / (i.sref * i.gamma * i.P ^ 2 * i.mach ^ 2)
  | .mach => -4 * i.lift / (i.sref * i.gamma * i.P * i.mach ^ 3)
  | _ => 0

/-- `dCDi_dspan`, aviary/subsystems/aerodynamics/flops_based/induced_drag.py:139. -/
noncomputable def dspan (i : In) : ℝ := -(cl i ^ 2) / (π * i.AR * se i ^ 2)

open Classical in
/-- The entries without the forward sweep factor, aviary/subsystems/aerodynamics/flops_based/induced_drag.py:137-166. -/
noncomputable def partBase (i : In) : Wrt → ℝ
  | .AR => -(cl i ^ 2) / (π * i.AR ^ 2 * se i)
      + (if i.redux then if i.sef ≤ 3 / 10 then dspan i * dse0AR i else dspan i * dse0AR i * i.sef
        else 0)
  | .sef => if i.sef ≤ 3 / 10 then dspan i else dspan i * se0 i
  | .sweep => 0
  | .TR => if i.redux then
      if i.sef ≤ 3 / 10 then dspan i * dse0TR i else dspan i * dse0TR i * i.sef else 0
  | w => 2 * cl i / (π * i.AR * se i) * dcl i w

/-- `dCOSA_dtansw`, aviary/subsystems/aerodynamics/flops_based/induced_drag.py:181. -/
noncomputable def dAts (ts h : ℝ) : ℝ := -(1 / 2) / fact3 ts h ^ (3 / 2 : ℝ) * 2 * (ts - 3 * h)

/-- `dCOSA_dTH`, aviary/subsystems/aerodynamics/flops_based/induced_drag.py:182. -/
noncomputable def dAth (ts h : ℝ) : ℝ := 1 / 2 / fact3 ts h ^ (3 / 2 : ℝ) * 6 * (ts - 3 * h)

/-- `dCOSB_dtansw` and `dCOSB_dTH`, aviary/subsystems/aerodynamics/flops_based/induced_drag.py:186-187. -/
noncomputable def dBt (ts h : ℝ) : ℝ := -(1 / 2) / fact4 ts h ^ (3 / 2 : ℝ) * 2 * (ts + h)

/-- `dCAYT_dmach`, aviary/subsystems/aerodynamics/flops_based/induced_drag.py:194-196. -/
noncomputable def dCm (m a b : ℝ) : ℝ :=
  (factG m a / factG m b - 1) * (-(11 / 100) * a / (factG m b * factC m a ^ 2)
    + 11 / 100 * factG m a * b / (factC m b ^ 2 * factG m b ^ 2))

/-- `dCAYT_dCOSA`, aviary/subsystems/aerodynamics/flops_based/induced_drag.py:197. -/
noncomputable def dCa (m a b : ℝ) : ℝ :=
  (factG m a / factG m b - 1) * (-(11 / 100) * m / (factG m b * factC m a ^ 2))

/-- `dCAYT_dCOSB`, aviary/subsystems/aerodynamics/flops_based/induced_drag.py:198. -/
noncomputable def dCb (m a b : ℝ) : ℝ :=
  (factG m a / factG m b - 1) * (11 / 100 * factG m a * m / (factC m b ^ 2 * factG m b ^ 2))

/-- The derivative of `CAYT` by way of `TH`, aviary/subsystems/aerodynamics/flops_based/induced_drag.py:208, 215. -/
noncomputable def dCth (i : In) : ℝ :=
  dCa i.mach (cosA (tsw i) (th i)) (cosB (tsw i) (th i)) * dAth (tsw i) (th i)
    + dCb i.mach (cosA (tsw i) (th i)) (cosB (tsw i) (th i)) * dBt (tsw i) (th i)

/-- The derivative of `CAYT` by way of the tangent, aviary/subsystems/aerodynamics/flops_based/induced_drag.py:211. -/
noncomputable def dCts (i : In) : ℝ :=
  dCa i.mach (cosA (tsw i) (th i)) (cosB (tsw i) (th i)) * dAts (tsw i) (th i)
    + dCb i.mach (cosA (tsw i) (th i)) (cosB (tsw i) (th i)) * dBt (tsw i) (th i)

/-- What the forward sweep adds to the entries, aviary/subsystems/aerodynamics/flops_based/induced_drag.py:168-217. -/
noncomputable def partFwd (i : In) : Wrt → ℝ
  | .mach => 2 * cayt i * cl i * dcl i .mach
      + cl i ^ 2 * dCm i.mach (cosA (tsw i) (th i)) (cosB (tsw i) (th i))
  | .AR => cl i ^ 2 * (-(1 - i.TR) * (1 / (1 + i.TR)) / i.AR ^ 2) * dCth i
  | .sweep => cl i ^ 2 * (1 / (degree * cos (i.sweep / degree) ^ 2)) * dCts i
  | .TR => cl i ^ 2
      * (-(1 / (1 + i.TR) + (1 - i.TR) * (1 / (1 + i.TR)) ^ 2) / i.AR) * dCth i
  | .sef => 0
  | w => 2 * cayt i * cl i * dcl i w

open Classical in
/-- `compute_partials`, aviary/subsystems/aerodynamics/flops_based/induced_drag.py:110-217. -/
noncomputable def part (i : In) (w : Wrt) : ℝ :=
  if i.sweep < 0 then partBase i w + partFwd i w else partBase i w

/-! ## aviary/subsystems/aerodynamics/flops_based/buffet_lift.py -/

/-- The inputs, aviary/subsystems/aerodynamics/flops_based/buffet_lift.py:22-33. -/
structure BIn where
  mach : ℝ
  mdes : ℝ
  AR : ℝ
  cam : ℝ
  sweep : ℝ
  TC : ℝ

/-- `FCLB`, aviary/subsystems/aerodynamics/flops_based/buffet_lift.py:62-68, and with `T.d1`, `T.d2` its derivatives. -/
noncomputable def fclb (f : ℝ → ℝ → ℝ) (i : BIn) : ℝ := f (i.TC ^ (2 / 3 : ℝ)) (i.mach - i.mdes)

/-- `DELCLB`, aviary/subsystems/aerodynamics/flops_based/buffet_lift.py:58-73. -/
noncomputable def buffet (T : Tab) (i : BIn) : ℝ :=
  fclb T.val i * (i.AR * (1 + i.cam / 10) / cos (i.sweep / degree))

/-- The inputs with respect to which the component gives derivatives, aviary/subsystems/aerodynamics/flops_based/buffet_lift.py:43-55. -/
inductive BWrt
  | mach | mdes | AR | TC | sweep | cam
  deriving DecidableEq

/-- The input named by `w`. Part of the model of aviary/subsystems/aerodynamics/flops_based/buffet_lift.py:43-55. -/
def BIn.get (i : BIn) : BWrt → ℝ
  | .mach => i.mach | .mdes => i.mdes | .AR => i.AR | .TC => i.TC | .sweep => i.sweep
  | .cam => i.cam

/-- The inputs with the input named by `w` replaced.
Part of the model of aviary/subsystems/aerodynamics/flops_based/buffet_lift.py:43-55. -/
def BIn.set (i : BIn) : BWrt → ℝ → BIn
  | .mach, t => { i with mach := t } | .mdes, t => { i with mdes := t }
  | .AR, t => { i with AR := t } | .TC, t => { i with TC := t }
  | .sweep, t => { i with sweep := t } | .cam, t => { i with cam := t }

/-- `cos_fact`, aviary/subsystems/aerodynamics/flops_based/buffet_lift.py:87-89. -/
noncomputable def cosFact (i : BIn) : ℝ := 1 / cos (i.sweep / degree)

/-- `compute_partials`, aviary/subsystems/aerodynamics/flops_based/buffet_lift.py:75-116. -/
noncomputable def bPart (T : Tab) (i : BIn) : BWrt → ℝ
  | .mach => i.AR * (1 + i.cam / 10) * cosFact i * fclb T.d2 i * 1
  | .mdes => i.AR * (1 + i.cam / 10) * cosFact i * fclb T.d2 i * -1
  | .AR => fclb T.val i * (1 + i.cam / 10) * cosFact i
  | .TC => i.AR * (1 + i.cam / 10) * cosFact i * fclb T.d1 i * (2 / 3 * i.TC ^ (-1 / 3 : ℝ))
  | .sweep => 1 / degree * i.AR * fclb T.val i * (1 + i.cam / 10) * sin (i.sweep / degree)
      * cosFact i ^ 2
  | .cam => fclb T.val i * i.AR / 10 * cosFact i

end Verif.InducedDrag
