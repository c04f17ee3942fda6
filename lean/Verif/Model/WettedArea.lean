import Mathlib.Analysis.SpecialFunctions.Sqrt
import Mathlib.Analysis.SpecialFunctions.Trigonometric.Basic

/-! # Wetted areas of a transport aircraft, FLOPS geometry

aviary/subsystems/geometry/flops_based/wetted_area_total.py, aviary/subsystems/geometry/flops_based/canard.py and aviary/subsystems/geometry/flops_based/utils.py.  Numbers are real
numbers.  `x ** 0.5` is the square root, `x ** 2.0` and `x ** 3.0` are powers. -/

namespace Verif.WettedArea
open Real

/-- The inputs of `PrelimWettedArea` of a transport, aviary/subsystems/geometry/flops_based/wetted_area_total.py:102-125. -/
structure In where
  refDiam : ℝ
  maxWidth : ℝ
  hArea : ℝ
  hAR : ℝ
  hTR : ℝ
  hTC : ℝ
  vArea : ℝ
  vAR : ℝ
  vTR : ℝ
  vTC : ℝ
  area : ℝ
  glove : ℝ
  span : ℝ
  TR : ℝ
  TC : ℝ

/-- The options, aviary/subsystems/geometry/flops_based/wetted_area_total.py:97-100, 651-653, 805-806. -/
structure Opt where
  redux : Bool
  nvTails : ℕ
  nFus : ℕ
  nFusEng : ℕ

/-- The outputs of `PrelimWettedArea`, aviary/subsystems/geometry/flops_based/wetted_area_total.py:127-142. -/
structure Pre where
  croot : ℝ
  crootb : ℝ
  crotm : ℝ
  crthtb : ℝ
  spanht : ℝ
  xmulth : ℝ
  crotvt : ℝ
  spanvt : ℝ
  xmultv : ℝ
  xdx : ℝ
  xmult : ℝ

/-- `thickness_to_chord_scaler`, aviary/subsystems/geometry/flops_based/utils.py:1. -/
noncomputable def tcScaler : ℝ := 387 / 1000

/-- `calc_lifting_surface_scaler`, aviary/subsystems/geometry/flops_based/utils.py:5-9. -/
noncomputable def surfScaler (tc : ℝ) : ℝ := tcScaler * tc + 2

/-- `calc_fuselage_adjustment`, aviary/subsystems/geometry/flops_based/utils.py:12-16. -/
noncomputable def fusAdj (chord tc : ℝ) : ℝ := 6730 / 10000 * chord * (tc * chord)

/-- `XDX`, aviary/subsystems/geometry/flops_based/wetted_area_total.py:247-248, 468-476. -/
def xdx (o : Opt) (i : In) : ℝ := if o.redux then i.maxWidth else i.refDiam

/-- `SPANHT`, aviary/subsystems/geometry/flops_based/wetted_area_total.py:253. -/
noncomputable def spanht (i : In) : ℝ := √(i.hAR * i.hArea)

open Classical in
/-- `CRTHTB`, aviary/subsystems/geometry/flops_based/wetted_area_total.py:255-264. -/
noncomputable def crthtb (o : Opt) (i : In) : ℝ :=
  if 0 < spanht i then
    2 * i.hArea / (spanht i * (1 + i.hTR))
      + ((spanht i / 2 - xdx o i / 4) / (spanht i / 2)) * (1 - i.hTR) + i.hTR
  else 0

/-- `CROOT`, aviary/subsystems/geometry/flops_based/wetted_area_total.py:276. -/
noncomputable def croot (i : In) : ℝ := (i.area - i.glove) * 2 / ((1 + i.TR) * i.span)

/-- `CROTM`, aviary/subsystems/geometry/flops_based/wetted_area_total.py:278-280. -/
noncomputable def crotm (o : Opt) (i : In) : ℝ :=
  ((i.span / 2 - xdx o i / 2) / (i.span / 2)) * (1 - i.TR) + i.TR

/-- `SPANVT`, aviary/subsystems/geometry/flops_based/wetted_area_total.py:284-288, 297. -/
noncomputable def spanvt (o : Opt) (i : In) : ℝ := if 0 < o.nvTails then √(i.vArea * i.vAR) else 0

open Classical in
/-- `CROTVT`, aviary/subsystems/geometry/flops_based/wetted_area_total.py:284-300. -/
noncomputable def crotvt (o : Opt) (i : In) : ℝ :=
  if 0 < o.nvTails then
    if 0 < spanvt o i then 2 * i.vArea / (spanvt o i * (1 + i.vTR)) else 0
  else 1

/-- `PrelimWettedArea.compute` of a transport, aviary/subsystems/geometry/flops_based/wetted_area_total.py:233-300. -/
noncomputable def prelim (o : Opt) (i : In) : Pre where
  croot := croot i
  crootb := croot i * crotm o i
  crotm := crotm o i
  crthtb := crthtb o i
  spanht := spanht i
  xmulth := surfScaler i.hTC
  crotvt := crotvt o i
  spanvt := spanvt o i
  xmultv := surfScaler i.vTC
  xdx := xdx o i
  xmult := surfScaler i.TC

/-- The other inputs of the group.
Part of the model of aviary/subsystems/geometry/flops_based/wetted_area_total.py:509-521. -/
structure Rest where
  length : ℝ
  mount : ℝ
  wingScaler : ℝ
  hScaler : ℝ
  vScaler : ℝ
  fusScaler : ℝ
  canArea : ℝ
  canTC : ℝ
  canScaler : ℝ

/-- `WingWettedArea.compute`, aviary/subsystems/geometry/flops_based/wetted_area_total.py:509-521. -/
noncomputable def wingWet (o : Opt) (i : In) (r : Rest) (p : Pre) : ℝ :=
  r.wingScaler * p.xmult * (i.area - (o.nFus * p.xdx / 2) * (p.croot + p.crootb))

/-- The horizontal part of `TailWettedArea.compute`, aviary/subsystems/geometry/flops_based/wetted_area_total.py:697-715. -/
noncomputable def hWet (o : Opt) (i : In) (r : Rest) (p : Pre) : ℝ :=
  if o.redux then r.hScaler * p.xmulth * i.hArea
  else r.hScaler * p.xmulth * i.hArea
    * (1 - (185 / 1000 + o.nFusEng * (63 / 1000)) * (1 - r.mount))

/-- The vertical part of `TailWettedArea.compute`, aviary/subsystems/geometry/flops_based/wetted_area_total.py:717-724. -/
noncomputable def vWet (i : In) (r : Rest) (p : Pre) : ℝ := r.vScaler * p.xmultv * i.vArea

open Classical in
/-- `FuselageWettedArea.compute`, aviary/subsystems/geometry/flops_based/wetted_area_total.py:847-891. -/
noncomputable def fusWet (o : Opt) (i : In) (r : Rest) (p : Pre) : ℝ :=
  if 0 < o.nFus ∧ 0 < i.refDiam then
    r.fusScaler * (π * i.refDiam ^ 2 * (r.length / i.refDiam - 17 / 10) - 2 * fusAdj p.crootb i.TC
      - 2 * fusAdj p.crthtb i.hTC * (1 - r.mount) - fusAdj p.crotvt i.vTC)
  else 0

open Classical in
/-- `CanardWettedArea.compute`, aviary/subsystems/geometry/flops_based/canard.py:32-47. -/
noncomputable def canWet (area tc sc : ℝ) : ℝ := if area ≤ 0 then 0 else sc * surfScaler tc * area

/-! ## Derivatives -/

/-- The inputs of `PrelimWettedArea`. Part of the model of aviary/subsystems/geometry/flops_based/canard.py:32-47. -/
inductive Wrt
  | refDiam | maxWidth | hArea | hAR | hTR | hTC | vArea | vAR | vTR | vTC | area | glove | span | TR
  | TC
  deriving DecidableEq

/-- The input named by `w`. Part of the model of aviary/subsystems/geometry/flops_based/canard.py:32-47. -/
def In.get (i : In) : Wrt → ℝ
  | .refDiam => i.refDiam | .maxWidth => i.maxWidth | .hArea => i.hArea | .hAR => i.hAR
  | .hTR => i.hTR | .hTC => i.hTC | .vArea => i.vArea | .vAR => i.vAR | .vTR => i.vTR
  | .vTC => i.vTC | .area => i.area | .glove => i.glove | .span => i.span | .TR => i.TR
  | .TC => i.TC

/-- The inputs with the input named by `w` replaced.
Part of the model of aviary/subsystems/geometry/flops_based/canard.py:32-47. -/
def In.set (i : In) : Wrt → ℝ → In
  | .refDiam, t => { i with refDiam := t } | .maxWidth, t => { i with maxWidth := t }
  | .hArea, t => { i with hArea := t } | .hAR, t => { i with hAR := t }
  | .hTR, t => { i with hTR := t } | .hTC, t => { i with hTC := t }
  | .vArea, t => { i with vArea := t } | .vAR, t => { i with vAR := t }
  | .vTR, t => { i with vTR := t } | .vTC, t => { i with vTC := t }
  | .area, t => { i with area := t } | .glove, t => { i with glove := t }
  | .span, t => { i with span := t } | .TR, t => { i with TR := t } | .TC, t => { i with TC := t }

/-- The input which `XDX` is, aviary/subsystems/geometry/flops_based/wetted_area_total.py:468-476. -/
def fusVar (o : Opt) : Wrt := if o.redux then .maxWidth else .refDiam

/-- The entries of `SPANHT`, aviary/subsystems/geometry/flops_based/wetted_area_total.py:313-318. -/
noncomputable def dSpanht (i : In) : Wrt → ℝ
  | .hArea => 1 / 2 / √(i.hArea * i.hAR) * i.hAR
  | .hAR => 1 / 2 / √(i.hArea * i.hAR) * i.hArea
  | _ => 0

open Classical in
/-- The entries of `CRTHTB`, aviary/subsystems/geometry/flops_based/wetted_area_total.py:320-369. -/
noncomputable def dCrthtb (o : Opt) (i : In) (w : Wrt) : ℝ :=
  let b := √(i.hArea * i.hAR)
  if 0 < b then
    if w = fusVar o then -(1 - i.hTR) / (2 * b)
    else match w with
    | .hArea =>
        let db := 1 / 2 * √(i.hAR / i.hArea)
        2 / (1 + i.hTR) * (1 - i.hArea * db / b) / b + (1 - i.hTR) * (1 / 2) * xdx o i * db / b ^ 2
    | .hAR =>
        -(1 / 2) * i.hArea * (2 / (1 + i.hTR) * i.hArea - xdx o i * (1 - i.hTR) / 2) / b ^ 3
    | .hTR => xdx o i / (2 * b) - 2 * i.hArea / b / (1 + i.hTR) ^ 2
    | _ => 0
  else 0

/-- The entries of `CROOT`, aviary/subsystems/geometry/flops_based/wetted_area_total.py:371-388. -/
noncomputable def dCroot (i : In) : Wrt → ℝ
  | .area => 2 / (i.span * (1 + i.TR))
  | .glove => -(2 / (i.span * (1 + i.TR)))
  | .span => -(2 * (i.area - i.glove) / (i.span * (1 + i.TR))) / i.span
  | .TR => -(2 * (i.area - i.glove) / (i.span * (1 + i.TR))) / (1 + i.TR)
  | _ => 0

/-- The entries of `CROTM`, aviary/subsystems/geometry/flops_based/wetted_area_total.py:390-408. -/
noncomputable def dCrotm (o : Opt) (i : In) (w : Wrt) : ℝ :=
  if w = fusVar o then -(1 - i.TR) / i.span
  else match w with
  | .span => ((1 - i.TR) / 2 * (i.span / 2) - (i.span / 2 - xdx o i / 2) * (1 - i.TR) * (1 / 2))
      / (i.span / 2) ^ 2
  | .TR => -((i.span / 2 - xdx o i / 2) / (i.span / 2)) + 1
  | _ => 0

/-- The entries of `CROOTB`, aviary/subsystems/geometry/flops_based/wetted_area_total.py:410-433; entries not written are zero. -/
noncomputable def dCrootb (o : Opt) (i : In) (w : Wrt) : ℝ :=
  dCroot i w * ((1 - i.TR) * (i.span / 2 - xdx o i / 2) / (i.span / 2) + i.TR)
    + 2 * (i.area - i.glove) / (i.span * (1 + i.TR)) * dCrotm o i w

/-- The entries of `SPANVT`, aviary/subsystems/geometry/flops_based/wetted_area_total.py:435-441. -/
noncomputable def dSpanvt (o : Opt) (i : In) (w : Wrt) : ℝ :=
  if 0 < o.nvTails then match w with
    | .vArea => 1 / 2 * i.vAR / √(i.vArea * i.vAR)
    | .vAR => 1 / 2 * i.vArea / √(i.vArea * i.vAR)
    | _ => 0
  else 0

open Classical in
/-- The entries of `CROTVT`, aviary/subsystems/geometry/flops_based/wetted_area_total.py:443-466. -/
noncomputable def dCrotvt (o : Opt) (i : In) (w : Wrt) : ℝ :=
  let b := √(i.vArea * i.vAR)
  if 0 < o.nvTails then
    if 0 < b then match w with
      | .vArea =>
          (2 / (1 + i.vTR) * b - 2 * i.vArea / (1 + i.vTR) * dSpanvt o i .vArea) / b ^ 2
      | .vAR => -(i.vArea ^ 2) / ((1 + i.vTR) * b ^ 3)
      | .vTR => -2 * i.vArea / (b * (1 + i.vTR) ^ 2)
      | _ => 0
    else 0
  else 0

/-- `compute_partials` and the constant entries, aviary/subsystems/geometry/flops_based/wetted_area_total.py:144-231, 302-466. -/
noncomputable def part (o : Opt) (i : In) (w : Wrt) : Pre where
  croot := dCroot i w
  crootb := dCrootb o i w
  crotm := dCrotm o i w
  crthtb := dCrthtb o i w
  spanht := dSpanht i w
  xmulth := if w = .hTC then tcScaler else 0
  crotvt := dCrotvt o i w
  spanvt := dSpanvt o i w
  xmultv := if w = .vTC then tcScaler else 0
  xdx := if w = fusVar o then 1 else 0
  xmult := if w = .TC then tcScaler else 0

/-- `CanardWettedArea.compute_partials`, aviary/subsystems/geometry/flops_based/canard.py:49-61, by area, thickness and scaler. -/
noncomputable def canPart (area tc sc : ℝ) : ℝ × ℝ × ℝ :=
  (sc * surfScaler tc, sc * tcScaler * area, surfScaler tc * area)

end Verif.WettedArea
