import Verif.Lemmas.Curve
import Mathlib.Analysis.SpecialFunctions.Pow.Real
import Mathlib.Analysis.SpecialFunctions.Trigonometric.Basic

/-! # Compressibility drag of the FLOPS aerodynamics

aviary/subsystems/aerodynamics/flops_based/compressibility_drag.py.  Numbers are real numbers.  The
nodes are independent of one another, so one node is modelled.  The tables belong to OpenMDAO and are
parameters.  A partial derivative is `none` when the code divides by zero to get it, where numpy
stores an infinity or a nan. -/

namespace Verif.CompressDrag
open Real

/-- The five tables, aviary/subsystems/aerodynamics/flops_based/compressibility_drag.py:583-597. -/
structure Tabs where
  pcw : Tab
  bsub : Tab
  pcar : Tab
  bsup : Tab
  wfi : Tab

/-- The inputs, aviary/subsystems/aerodynamics/flops_based/compressibility_drag.py:22-37. -/
structure In where
  mach : ℝ
  mdes : ℝ
  base : ℝ
  sref : ℝ
  AR : ℝ
  cam : ℝ
  sweep : ℝ
  taper : ℝ
  TC : ℝ
  fuse : ℝ
  dws : ℝ
  ld : ℝ

open Classical in
/-- A table with the clamp of the negative values and of their derivatives,
aviary/subsystems/aerodynamics/flops_based/compressibility_drag.py:107-112, 121-126, 181-186, 195-200. -/
noncomputable def clamp (T : Tab) : Tab where
  val x y := if T.val x y ≤ 0 then 0 else T.val x y
  d1 x y := if T.val x y ≤ 0 then 0 else T.d1 x y
  d2 x y := if T.val x y ≤ 0 then 0 else T.d2 x y

/-- `57.2958`, aviary/subsystems/aerodynamics/flops_based/compressibility_drag.py:103. -/
noncomputable def deg : ℝ := 572958 / 10000

/-- `del_mach`, aviary/subsystems/aerodynamics/flops_based/compressibility_drag.py:75, 91, 169, 225. -/
noncomputable def delm (i : In) : ℝ := i.mach - i.mdes

/-- `ART`, aviary/subsystems/aerodynamics/flops_based/compressibility_drag.py:103. -/
noncomputable def art (i : In) : ℝ :=
  i.AR * tan (i.sweep / deg) + (1 - i.taper) / (1 + i.taper)

/-- `SOS`, aviary/subsystems/aerodynamics/flops_based/compressibility_drag.py:118, 192. -/
noncomputable def sos (i : In) : ℝ := 1 + i.base / i.fuse

/-- `TOC`, aviary/subsystems/aerodynamics/flops_based/compressibility_drag.py:177. -/
noncomputable def toc (i : In) : ℝ := i.TC ^ (2 / 3 : ℝ)

/-- `TC ** (5/3) * (1 + 0.1 * max_camber_70)`, aviary/subsystems/aerodynamics/flops_based/compressibility_drag.py:114, 188, 250, 384. -/
noncomputable def kWing (i : In) : ℝ := i.TC ^ (5 / 3 : ℝ) * (1 + 1 / 10 * i.cam)

/-- `fuse_area / wing_area * (1 / fuselage_len_to_diam_ratio**2)`, aviary/subsystems/aerodynamics/flops_based/compressibility_drag.py:129, 203,
251, 385. -/
noncomputable def kFus (i : In) : ℝ := i.fuse / i.sref * (1 / i.ld ^ 2)

/-- `CD3`, aviary/subsystems/aerodynamics/flops_based/compressibility_drag.py:107-111. -/
noncomputable def cd3 (T : Tabs) (i : In) : ℝ := (clamp T.pcar).val (delm i) (art i)

/-- `CD4`, aviary/subsystems/aerodynamics/flops_based/compressibility_drag.py:118-125. -/
noncomputable def cd4 (T : Tabs) (i : In) : ℝ := (clamp T.bsup).val i.mach (sos i)

/-- `CD5`, aviary/subsystems/aerodynamics/flops_based/compressibility_drag.py:137-138. -/
noncomputable def cd5 (T : Tabs) (i : In) : ℝ := T.wfi.val i.mach i.dws

/-- `CD1`, aviary/subsystems/aerodynamics/flops_based/compressibility_drag.py:177-185. -/
noncomputable def cd1 (T : Tabs) (i : In) : ℝ := (clamp T.pcw).val (delm i) (toc i)

/-- `CD2`, aviary/subsystems/aerodynamics/flops_based/compressibility_drag.py:192-199. -/
noncomputable def cd2 (T : Tabs) (i : In) : ℝ := (clamp T.bsub).val i.mach (sos i)

open Classical in
/-- The taper ratio of the interference term, aviary/subsystems/aerodynamics/flops_based/compressibility_drag.py:141-142. -/
noncomputable def taper' (i : In) : ℝ := if i.taper = 1 then 1 / 2 else i.taper

/-- The factor of the interference term, aviary/subsystems/aerodynamics/flops_based/compressibility_drag.py:144-146. -/
noncomputable def kInt (i : In) : ℝ := 1 / (1 - taper' i) / cos (i.sweep / deg)

open Classical in
/-- `_compute_supersonic`, aviary/subsystems/aerodynamics/flops_based/compressibility_drag.py:87-163. -/
noncomputable def super (T : Tabs) (i : In) : ℝ :=
  if 0 < i.fuse then
    if 1 ≤ i.mach then cd3 T i * kWing i + cd4 T i * kFus i + cd5 T i * kInt i
    else cd3 T i * kWing i + cd4 T i * kFus i
  else cd3 T i * kWing i

open Classical in
/-- `_compute_subsonic`, aviary/subsystems/aerodynamics/flops_based/compressibility_drag.py:165-214. -/
noncomputable def sub (T : Tabs) (i : In) : ℝ :=
  if 0 < i.fuse then cd1 T i * kWing i + cd2 T i * kFus i else cd1 T i * kWing i

open Classical in
/-- `compress_drag_coeff`, aviary/subsystems/aerodynamics/flops_based/compressibility_drag.py:73-85. -/
noncomputable def drag (T : Tabs) (i : In) : ℝ :=
  if 5 / 100 < delm i then super T i else sub T i

/-- The inputs with respect to which the component gives derivatives,
aviary/subsystems/aerodynamics/flops_based/compressibility_drag.py:50-69. -/
inductive Wrt
  | mach | mdes | TC | cam | fuse | base | sref | ld | taper | sweep | AR | dws
  deriving DecidableEq

/-- The input named by `w`.
Part of the model of aviary/subsystems/aerodynamics/flops_based/compressibility_drag.py:50-69. -/
def In.get (i : In) : Wrt → ℝ
  | .mach => i.mach | .mdes => i.mdes | .TC => i.TC | .cam => i.cam | .fuse => i.fuse
  | .base => i.base | .sref => i.sref | .ld => i.ld | .taper => i.taper | .sweep => i.sweep
  | .AR => i.AR | .dws => i.dws

/-- The inputs with the input named by `w` replaced.
Part of the model of aviary/subsystems/aerodynamics/flops_based/compressibility_drag.py:50-69. -/
def In.set (i : In) : Wrt → ℝ → In
  | .mach, t => { i with mach := t } | .mdes, t => { i with mdes := t }
  | .TC, t => { i with TC := t } | .cam, t => { i with cam := t }
  | .fuse, t => { i with fuse := t } | .base, t => { i with base := t }
  | .sref, t => { i with sref := t } | .ld, t => { i with ld := t }
  | .taper, t => { i with taper := t } | .sweep, t => { i with sweep := t }
  | .AR, t => { i with AR := t } | .dws, t => { i with dws := t }

/-- The entries of `partials` of the node; they are kept from one call to the next.
Part of the model of aviary/subsystems/aerodynamics/flops_based/compressibility_drag.py:216-232. -/
abbrev State := Wrt → Option ℝ

/-- One assignment after another.
Part of the model of aviary/subsystems/aerodynamics/flops_based/compressibility_drag.py:216-232. -/
def assign (s : State) (l : List (Wrt × Option ℝ)) : State :=
  l.foldl (fun s p => Function.update s p.1 p.2) s

/-- `dCd3_dCD3 * dCD3_ddel_mach`, aviary/subsystems/aerodynamics/flops_based/compressibility_drag.py:266. -/
noncomputable def p3m (T : Tabs) (i : In) : ℝ := kWing i * (clamp T.pcar).d1 (delm i) (art i)

/-- `dCd3_dCD3 * dCD3_dART`, aviary/subsystems/aerodynamics/flops_based/compressibility_drag.py:281, 288, 320, 351. -/
noncomputable def p3a (T : Tabs) (i : In) : ℝ := kWing i * (clamp T.pcar).d2 (delm i) (art i)

/-- `dART_dwing_taper_ratio`, aviary/subsystems/aerodynamics/flops_based/compressibility_drag.py:283-285. -/
noncomputable def dArtTaper (i : In) : ℝ :=
  -(1 - i.taper) / (i.taper + 1) ^ 2 - 1 / (i.taper + 1)

/-- `dART_dsweep25`, aviary/subsystems/aerodynamics/flops_based/compressibility_drag.py:287. -/
noncomputable def dArtSweep (i : In) : ℝ := i.AR * (tan (i.sweep / deg) ^ 2 + 1) / deg

/-- `dCd4_dCD4 * dCD4_dSOS`, aviary/subsystems/aerodynamics/flops_based/compressibility_drag.py:300, 304. -/
noncomputable def p4s (T : Tabs) (i : In) : ℝ := kFus i * (clamp T.bsup).d2 i.mach (sos i)

/-- `dCd5_dCD5`, aviary/subsystems/aerodynamics/flops_based/compressibility_drag.py:252. -/
noncomputable def k5 (i : In) : ℝ := 1 / (1 - i.taper) / cos (i.sweep / deg)

open Classical in
/-- A number the code divides by `1 - wing_taper_ratio` to get, aviary/subsystems/aerodynamics/flops_based/compressibility_drag.py:252, 330-332,
338-342. -/
noncomputable def byTaper (i : In) (x : ℝ) : Option ℝ := if i.taper = 1 then none else some x

open Classical in
/-- The assignments of `_compute_partials_supersonic`, aviary/subsystems/aerodynamics/flops_based/compressibility_drag.py:234-371. -/
noncomputable def superAssign (T : Tabs) (i : In) : List (Wrt × Option ℝ) :=
  [(.mach, if 0 < i.fuse then
      if 1 ≤ i.mach then byTaper i (p3m T i + kFus i * (clamp T.bsup).d1 i.mach (sos i)
        + k5 i * T.wfi.d1 i.mach i.dws)
      else some (p3m T i + kFus i * (clamp T.bsup).d1 i.mach (sos i))
    else some (p3m T i)),
   (.mdes, some (p3m T i * -1)),
   (.TC, some (5 / 3 * cd3 T i * i.TC ^ (2 / 3 : ℝ) * (1 + 1 / 10 * i.cam))),
   (.cam, some (1 / 10 * cd3 T i * i.TC ^ (5 / 3 : ℝ))),
   (.fuse, some (if 0 < i.fuse then
      cd4 T i / (i.sref * i.ld ^ 2) + p4s T i * (-i.base / i.fuse ^ 2) else 0)),
   (.base, some (if 0 < i.fuse then p4s T i * (1 / i.fuse) else 0)),
   (.sref, some (if 0 < i.fuse then -cd4 T i * i.fuse / (i.sref * i.ld) ^ 2 else 0)),
   (.ld, some (if 0 < i.fuse then -2 * cd4 T i * i.fuse / (i.sref * i.ld ^ 3) else 0)),
   (.taper, if 0 < i.fuse ∧ 1 ≤ i.mach then
      byTaper i (p3a T i * dArtTaper i
        + cd5 T i / ((1 - i.taper) ^ 2 * cos (i.sweep / deg)))
    else some (p3a T i * dArtTaper i)),
   (.sweep, if 0 < i.fuse ∧ 1 ≤ i.mach then
      byTaper i (p3a T i * dArtSweep i
        + cd5 T i * sin (i.sweep / deg) / (deg * (1 - i.taper) * cos (i.sweep / deg) ^ 2))
    else some (p3a T i * dArtSweep i)),
   (.AR, some (p3a T i * tan (i.sweep / deg))),
   (.dws, if 0 < i.fuse ∧ 1 ≤ i.mach then byTaper i (k5 i * T.wfi.d2 i.mach i.dws) else some 0)]

open Classical in
/-- The derivatives of `CD2`, which are zero without a fuselage, aviary/subsystems/aerodynamics/flops_based/compressibility_drag.py:195-200, 210.
-/
noncomputable def dcd2m (T : Tabs) (i : In) : ℝ :=
  if 0 < i.fuse then (clamp T.bsub).d1 i.mach (sos i) else 0

open Classical in
/-- The assignments of `_compute_partials_subsonic`, aviary/subsystems/aerodynamics/flops_based/compressibility_drag.py:373-455. -/
noncomputable def subAssign (T : Tabs) (i : In) : List (Wrt × Option ℝ) :=
  [(.mach, some (kWing i * (clamp T.pcw).d1 (delm i) (toc i) * 1 + kFus i * dcd2m T i)),
   (.mdes, some (-kWing i * (clamp T.pcw).d1 (delm i) (toc i))),
   (.TC, some (5 / 3 * cd1 T i * (1 + 1 / 10 * i.cam) * i.TC ^ (2 / 3 : ℝ)
      + kWing i * ((clamp T.pcw).d2 (delm i) (toc i) * (2 / 3 * i.TC ^ (-1 / 3 : ℝ))))),
   (.cam, some (cd1 T i * (1 / 10) * i.TC ^ (5 / 3 : ℝ)))]
  ++ (if 0 < i.fuse then
      [(.fuse, some (cd2 T i / (i.sref * i.ld ^ 2)
        + kFus i * (clamp T.bsub).d2 i.mach (sos i) * (-i.base / i.fuse ^ 2))),
       (.base, some (kFus i * (clamp T.bsub).d2 i.mach (sos i) * (1 / i.fuse))),
       (.sref, some (-cd2 T i * i.fuse / (i.sref * i.ld) ^ 2)),
       (.ld, some (-2 * cd2 T i * i.fuse / (i.sref * i.ld ^ 3)))]
    else [(.fuse, some 0), (.base, some 0), (.sref, some 0), (.ld, some 0)])
  ++ [(.taper, some 0), (.sweep, some 0), (.AR, some 0), (.dws, some 0)]

open Classical in
/-- `compute_partials`, aviary/subsystems/aerodynamics/flops_based/compressibility_drag.py:216-232. -/
noncomputable def partials (T : Tabs) (s : State) (i : In) : State :=
  if 5 / 100 < delm i then assign s (superAssign T i) else assign s (subAssign T i)

end Verif.CompressDrag
