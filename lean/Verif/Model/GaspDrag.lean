import Verif.Lemmas.CompDeriv
import Verif.Model.Dict
import Mathlib.Analysis.SpecialFunctions.Log.Base

/-! # The drag build-up of the GASP aerodynamics

`WingTailRatios`, `Xlifts`, `AeroGeom`, `DragCoef`, `DragCoefClean` and `GroundEffect` of
`aviary/subsystems/aerodynamics/gasp_based/gaspaero.py`.  Numbers are real numbers, one node is modelled where the nodes are
independent of one another; a division by zero, which gives infinity or not-a-number in the code, gives `0` here. -/

namespace Verif.GaspDrag
open Real

/-- aviary/subsystems/aerodynamics/gasp_based/gaspaero.py:69-71 -/
noncomputable def deg2rad (d : ℝ) : ℝ := d * π / 180

/-- aviary/subsystems/aerodynamics/gasp_based/gaspaero.py:74-76 -/
noncomputable def rad2deg (r : ℝ) : ℝ := r * 180 / π

/-- The lift curve slope of a wing, aviary/subsystems/aerodynamics/gasp_based/gaspaero.py:79-95. -/
noncomputable def cla (ar sweep mach : ℝ) : ℝ :=
  π * ar / (1 + √(1 + (ar / (2 * cos sweep)) ^ 2 * (1 - (mach * cos sweep) ^ 2)))

/-! ## Ratios of wing and tail -/

/-- The inputs of `WingTailRatios`, aviary/subsystems/aerodynamics/gasp_based/gaspaero.py:174-186. -/
structure Tail where
  wingArea : ℝ
  span : ℝ
  chord : ℝ
  taper : ℝ
  tcRoot : ℝ
  wingLoc : ℝ
  htLoc : ℝ
  htSpan : ℝ
  vtSpan : ℝ
  htArea : ℝ
  htChord : ℝ
  width : ℝ

/-- aviary/subsystems/aerodynamics/gasp_based/gaspaero.py:199-201 -/
noncomputable def Tail.hbar (t : Tail) : ℝ :=
  let trtw := t.tcRoot * 2 * t.wingArea / t.span / (1 + t.taper)
  |t.htLoc * t.vtSpan - 0.5 * (t.width - trtw) * (2 * t.wingLoc - 1)| / t.span

/-- aviary/subsystems/aerodynamics/gasp_based/gaspaero.py:202 -/
noncomputable def Tail.bbar (t : Tail) : ℝ := t.htSpan / t.span

/-- aviary/subsystems/aerodynamics/gasp_based/gaspaero.py:203 -/
noncomputable def Tail.sbar (t : Tail) : ℝ := t.htArea / t.wingArea

/-- aviary/subsystems/aerodynamics/gasp_based/gaspaero.py:204 -/
noncomputable def Tail.cbar (t : Tail) : ℝ := t.htChord / t.chord

open Classical in
/-- aviary/subsystems/aerodynamics/gasp_based/gaspaero.py:205-209 -/
noncomputable def Tail.bbarAlt (t : Tail) : ℝ := if t.htSpan < 0.01 * t.span then 1 else t.bbar

/-! ## Body lift curve slope -/

open Classical in
/-- The check of the Mach numbers and the slopes, aviary/subsystems/aerodynamics/gasp_based/gaspaero.py:245-261; the
`AnalysisError` is an error value. -/
noncomputable def bodySlope (b0 : ℝ) (mach : List ℝ) : Except Err (List ℝ) :=
  if ∃ x ∈ mach, x < -1e-8 ∨ x ≥ 1 + 1e-8 then .error .valueError
  else .ok (mach.map fun m => b0 / √(1 - m ^ 2))

/-! ## Lift ratio -/

/-- The inputs of `Xlifts` at one node, aviary/subsystems/aerodynamics/gasp_based/gaspaero.py:341-354. -/
structure Lift where
  mach : ℝ
  margin : ℝ
  deltaCg : ℝ
  ar : ℝ
  sweep : ℝ
  htLoc : ℝ
  htSweep : ℝ
  moment : ℝ
  sbar : ℝ
  cbar : ℝ
  hbar : ℝ
  bbar : ℝ

/-- aviary/subsystems/aerodynamics/gasp_based/gaspaero.py:369 -/
noncomputable def Lift.delta (x : Lift) : ℝ := (x.margin + x.deltaCg) * x.moment

/-- aviary/subsystems/aerodynamics/gasp_based/gaspaero.py:374 -/
noncomputable def Lift.xt (x : Lift) : ℝ := 1 / x.moment

/-- aviary/subsystems/aerodynamics/gasp_based/gaspaero.py:376 -/
noncomputable def Lift.art (x : Lift) : ℝ := x.ar * x.bbar ^ 2 / x.sbar

/-- aviary/subsystems/aerodynamics/gasp_based/gaspaero.py:377 -/
noncomputable def Lift.h (x : Lift) : ℝ := x.hbar * x.ar

/-- aviary/subsystems/aerodynamics/gasp_based/gaspaero.py:380 -/
noncomputable def Lift.claw0 (x : Lift) : ℝ := cla x.ar (deg2rad x.sweep) x.mach

/-- aviary/subsystems/aerodynamics/gasp_based/gaspaero.py:381 -/
noncomputable def Lift.clat0 (x : Lift) : ℝ := cla x.art (deg2rad x.htSweep) x.mach * (0.9 + 0.1 * x.htLoc)

/-- `eps1`, aviary/subsystems/aerodynamics/gasp_based/gaspaero.py:384 -/
noncomputable def Lift.eps1 (x : Lift) : ℝ := 1 / (4 * π * √(x.xt ^ 2 + x.h ^ 2))

/-- `eps1 + eps2 + eps3`, aviary/subsystems/aerodynamics/gasp_based/gaspaero.py:384-386 -/
noncomputable def Lift.onTail (x : Lift) : ℝ :=
  x.eps1 + 1 / π / x.ar + |x.xt| / (π * x.ar * √(x.xt ^ 2 + x.h ^ 2 + x.ar ^ 2 / 4))

/-- `eps4 - eps5 - cbar * eps1`, aviary/subsystems/aerodynamics/gasp_based/gaspaero.py:384-388 -/
noncomputable def Lift.onWing (x : Lift) : ℝ :=
  1 / π / x.art - |x.xt| / (π * x.art * √(x.xt ^ 2 + x.h ^ 2 + x.art ^ 2 * x.cbar ^ 2 / 4)) - x.cbar * x.eps1

/-- aviary/subsystems/aerodynamics/gasp_based/gaspaero.py:390 -/
noncomputable def Lift.denom (x : Lift) : ℝ := 1 - x.clat0 * x.claw0 * x.onTail * x.onWing

open Classical in
/-- The test that decides about the warning, `np.any(denom) == 0.0`: it asks whether no entry differs from zero,
aviary/subsystems/aerodynamics/gasp_based/gaspaero.py:391-395, 400-402. -/
noncomputable def warns (denom : List ℝ) : Bool := ! denom.any (fun d => decide (d ≠ 0))

/-- aviary/subsystems/aerodynamics/gasp_based/gaspaero.py:396 -/
noncomputable def Lift.claw (x : Lift) : ℝ := x.claw0 * (1 - x.clat0 * x.onWing) / x.denom

/-- aviary/subsystems/aerodynamics/gasp_based/gaspaero.py:398 -/
noncomputable def Lift.clat (x : Lift) : ℝ := x.clat0 * (1 - x.claw * x.onTail)

/-- aviary/subsystems/aerodynamics/gasp_based/gaspaero.py:403-405 -/
noncomputable def Lift.ratio (x : Lift) : ℝ :=
  let abar := x.clat / x.claw
  let c := 1 / (1 + 1 / abar / x.sbar)
  (c - x.delta) / (1 + x.delta - c)

/-! ## Drag parameters -/

/-- One engine type: number of engines, form factor, length and surface area of the nacelle,
aviary/subsystems/aerodynamics/gasp_based/gaspaero.py:672, 697-699, 723-726. -/
structure Engine where
  num : ℕ
  ff : ℝ
  len : ℝ
  area : ℝ

/-- The inputs of `AeroGeom` at one node and its options, aviary/subsystems/aerodynamics/gasp_based/gaspaero.py:671-752.
The Mach number, speed of sound, viscosity and `ufac` come first; then form factors, interference factors, increments, locations,
wing and tail geometry, the inputs computed from the wing and body interference, and the drag factors. -/
structure Geom where
  mach : ℝ
  sos : ℝ
  nu : ℝ
  ufac : ℝ
  ffWing : ℝ
  ffFus : ℝ
  ffVtail : ℝ
  ffHtail : ℝ
  wfIntf : ℝ
  strutIntf : ℝ
  cd0Inc : ℝ
  feFusInc : ℝ
  xmp : ℝ
  xmt : ℝ
  ar : ℝ
  sweep : ℝ
  taper : ℝ
  strutRatio : ℝ
  chord : ℝ
  htChord : ℝ
  vtChord : ℝ
  fusLen : ℝ
  htArea : ℝ
  fusArea : ℝ
  wingArea : ℝ
  vtArea : ℝ
  tc : ℝ
  strutChord : ℝ
  feInt : ℝ
  shield : ℝ
  siwb : ℝ
  fFus : ℝ
  fHt : ℝ
  fInt : ℝ
  fNac : ℝ
  fPyl : ℝ
  fStrut : ℝ
  fVt : ℝ
  fWing : ℝ
  fExcr : ℝ
  pctExcr : ℝ
  engines : List Engine
  hasStrut : Bool

namespace Geom

/-- Skin friction coefficient, aviary/subsystems/aerodynamics/gasp_based/gaspaero.py:946. -/
noncomputable def cf (g : Geom) : ℝ := 0.455 / (7 : ℝ) ^ (2.58 : ℝ) / (1 + 0.144 * g.mach ^ 2) ^ (0.65 : ℝ)

/-- `t`, aviary/subsystems/aerodynamics/gasp_based/gaspaero.py:954. -/
noncomputable def tanSweep (g : Geom) : ℝ := |tan (deg2rad g.sweep)|

/-- aviary/subsystems/aerodynamics/gasp_based/gaspaero.py:955 -/
noncomputable def yale (g : Geom) : ℝ := (1 - g.taper) / (1 + g.taper)

/-- The sweep angle in degrees at the chord fraction `x`, aviary/subsystems/aerodynamics/gasp_based/gaspaero.py:957, 959;
`arctan2(y, AR)` is the arc tangent of `y / AR` for a positive aspect ratio. -/
noncomputable def sweepAt (g : Geom) (x : ℝ) : ℝ := rad2deg (arctan ((g.ar * g.tanSweep - 4 * (x - 0.25) * g.yale) / g.ar))

/-- aviary/subsystems/aerodynamics/gasp_based/gaspaero.py:961 -/
noncomputable def rlmle (g : Geom) : ℝ := arctan ((g.ar * g.tanSweep + g.yale) / g.ar)

/-- aviary/subsystems/aerodynamics/gasp_based/gaspaero.py:962 -/
noncomputable def fk (g : Geom) : ℝ := 1 / (1 + g.yale / g.ar * 4 * g.taper ^ 2)

/-- Reynolds number per foot, aviary/subsystems/aerodynamics/gasp_based/gaspaero.py:969-972. -/
noncomputable def reli (g : Geom) : ℝ :=
  let sig := sigX g.mach 0.1 0.005
  (1 - sig) * 700000 + sig * (g.sos * g.mach / g.nu)

open Classical in
/-- The correction for the Reynolds number and a length, aviary/subsystems/aerodynamics/gasp_based/gaspaero.py:976-991. -/
noncomputable def fre (reli len : ℝ) : ℝ := if reli > 1 then (logb 10 (reli * len) / 7) ^ (-2.6 : ℝ) else 1

/-- The correction of the strut at a node of good Reynolds number; `1` without a strut,
aviary/subsystems/aerodynamics/gasp_based/gaspaero.py:992-994; see `strutArr` for the array. -/
noncomputable def fstrt (g : Geom) : ℝ := if g.hasStrut then fre g.reli g.strutChord else 1

/-- aviary/subsystems/aerodynamics/gasp_based/gaspaero.py:947, 1001 -/
noncomputable def fef (g : Geom) : ℝ := g.fusArea * (g.fFus * g.cf) * fre g.reli g.fusLen * g.ffFus + g.feFusInc

/-- aviary/subsystems/aerodynamics/gasp_based/gaspaero.py:952, 1002 -/
noncomputable def few (g : Geom) : ℝ := g.ffWing * g.wingArea * (g.fWing * g.cf) * fre g.reli g.chord

/-- aviary/subsystems/aerodynamics/gasp_based/gaspaero.py:949, 1005-1006 -/
noncomputable def fen (g : Geom) : ℝ :=
  g.fPyl * (g.fNac * g.cf) * (g.engines.map fun e => (e.num : ℝ) * (e.ff * e.area * fre g.reli e.len)).sum

/-- aviary/subsystems/aerodynamics/gasp_based/gaspaero.py:951, 1008 -/
noncomputable def fevt (g : Geom) : ℝ := g.ffVtail * g.vtArea * (g.fVt * g.cf) * fre g.reli g.vtChord

/-- aviary/subsystems/aerodynamics/gasp_based/gaspaero.py:948, 1009 -/
noncomputable def feht (g : Geom) : ℝ := g.ffHtail * g.htArea * (g.fHt * g.cf) * fre g.reli g.htChord

/-- aviary/subsystems/aerodynamics/gasp_based/gaspaero.py:950, 1010 -/
noncomputable def festrt (g : Geom) : ℝ := g.strutIntf * g.strutRatio * g.wingArea * (g.fStrut * g.cf) * g.fstrt

/-- aviary/subsystems/aerodynamics/gasp_based/gaspaero.py:1014 -/
noncomputable def cdw0 (g : Geom) : ℝ := g.few / g.wingArea

/-- aviary/subsystems/aerodynamics/gasp_based/gaspaero.py:1016-1017 -/
noncomputable def feiwf (g : Geom) : ℝ := g.fInt * (g.wfIntf * (g.feInt - g.cdw0 * g.shield))

/-- aviary/subsystems/aerodynamics/gasp_based/gaspaero.py:1021 -/
noncomputable def feexcr (g : Geom) : ℝ := g.fExcr * g.pctExcr * (g.few + g.fef + g.fevt + g.feht + g.fen + g.festrt)

/-- aviary/subsystems/aerodynamics/gasp_based/gaspaero.py:1026 -/
noncomputable def fe (g : Geom) : ℝ :=
  g.few + g.fef + g.fevt + g.feht + g.fen + g.feiwf + g.festrt + g.cd0Inc * g.wingArea + g.feexcr

/-- aviary/subsystems/aerodynamics/gasp_based/gaspaero.py:1029 -/
noncomputable def cdpo (g : Geom) : ℝ := (g.fe - g.few) / g.wingArea

/-- Oswald efficiency, aviary/subsystems/aerodynamics/gasp_based/gaspaero.py:1032-1034. -/
noncomputable def see (g : Geom) : ℝ :=
  1 / (1 / g.ufac / g.siwb + 1.1938 * g.ar * (g.cdw0 / cos (deg2rad g.sweep) ^ 2 + g.cdpo))

/-- aviary/subsystems/aerodynamics/gasp_based/gaspaero.py:1038-1040 -/
noncomputable def sa1 (g : Geom) : ℝ :=
  (1 + 0.0033 * (4 * g.sweepAt g.xmp - 3 * g.sweepAt g.xmt)) * (1 - 1.4 * g.tc - 0.06 * (1 - g.xmp)) - 0.0368

/-- aviary/subsystems/aerodynamics/gasp_based/gaspaero.py:1041 -/
noncomputable def sa2 (g : Geom) : ℝ := -0.33 * (0.65 - g.xmp) * (1 + 0.0033 * (4 * g.sweepAt g.xmp - 3 * g.sweepAt g.xmt))

/-- aviary/subsystems/aerodynamics/gasp_based/gaspaero.py:1042 -/
noncomputable def sa3 (g : Geom) : ℝ := (1.5 - 2 * g.fk ^ 2 * sin g.rlmle ^ 2) * g.tc ^ (5 / 3 : ℝ)

/-- aviary/subsystems/aerodynamics/gasp_based/gaspaero.py:1043 -/
noncomputable def sa4 (g : Geom) : ℝ := 0.75 * g.tc

/-- aviary/subsystems/aerodynamics/gasp_based/gaspaero.py:1046 -/
noncomputable def sa5 (g : Geom) : ℝ := g.cdpo

/-- aviary/subsystems/aerodynamics/gasp_based/gaspaero.py:1048 -/
noncomputable def sa6 (g : Geom) : ℝ := g.ffWing * fre g.reli g.chord

/-- aviary/subsystems/aerodynamics/gasp_based/gaspaero.py:1050 -/
noncomputable def sa7 (g : Geom) : ℝ := 1 / (π * g.see * g.ar)

end Geom

open Classical in
/-- The array of strut corrections: the masked entries are taken out instead of left at one; arrays of different lengths are
added only if one of them has one entry, aviary/subsystems/aerodynamics/gasp_based/gaspaero.py:979-994, 1010, 1026. -/
noncomputable def strutArr (reli : List ℝ) (chord : ℝ) : Except Err (List ℝ) :=
  let v := (reli.filter fun r => decide (r > 1)).map fun r => (logb 10 (r * chord) / 7) ^ (-2.6 : ℝ)
  if v.length = reli.length then .ok v
  else match v with
    | [x] => .ok (List.replicate reli.length x)
    | _ => .error .valueError

/-- The inputs of `AeroGeom` by name, aviary/subsystems/aerodynamics/gasp_based/gaspaero.py:675-752. -/
inductive Nm
  | mach | sos | nu | ufac | ffWing | ffFus | ffVtail | ffHtail | wfIntf | strutIntf
  | cd0Inc | feFusInc | xmp | xmt | ar | sweep | taper | strutRatio | chord | htChord
  | vtChord | fusLen | htArea | fusArea | wingArea | vtArea | tc | strutChord | feInt | shield
  | siwb | fFus | fHt | fInt | fNac | fPyl | fStrut | fVt | fWing | fExcr
  | pctExcr
  | ffNac | nacLen | nacArea
  deriving DecidableEq

/-- The value of an input, one entry for each engine type for the nacelles.
Part of the model of aviary/subsystems/aerodynamics/gasp_based/gaspaero.py:675-752. -/
def Geom.get (g : Geom) : Nm → List ℝ
  | .mach => [g.mach]
  | .sos => [g.sos]
  | .nu => [g.nu]
  | .ufac => [g.ufac]
  | .ffWing => [g.ffWing]
  | .ffFus => [g.ffFus]
  | .ffVtail => [g.ffVtail]
  | .ffHtail => [g.ffHtail]
  | .wfIntf => [g.wfIntf]
  | .strutIntf => [g.strutIntf]
  | .cd0Inc => [g.cd0Inc]
  | .feFusInc => [g.feFusInc]
  | .xmp => [g.xmp]
  | .xmt => [g.xmt]
  | .ar => [g.ar]
  | .sweep => [g.sweep]
  | .taper => [g.taper]
  | .strutRatio => [g.strutRatio]
  | .chord => [g.chord]
  | .htChord => [g.htChord]
  | .vtChord => [g.vtChord]
  | .fusLen => [g.fusLen]
  | .htArea => [g.htArea]
  | .fusArea => [g.fusArea]
  | .wingArea => [g.wingArea]
  | .vtArea => [g.vtArea]
  | .tc => [g.tc]
  | .strutChord => [g.strutChord]
  | .feInt => [g.feInt]
  | .shield => [g.shield]
  | .siwb => [g.siwb]
  | .fFus => [g.fFus]
  | .fHt => [g.fHt]
  | .fInt => [g.fInt]
  | .fNac => [g.fNac]
  | .fPyl => [g.fPyl]
  | .fStrut => [g.fStrut]
  | .fVt => [g.fVt]
  | .fWing => [g.fWing]
  | .fExcr => [g.fExcr]
  | .pctExcr => [g.pctExcr]
  | .ffNac => g.engines.map (·.ff)
  | .nacLen => g.engines.map (·.len)
  | .nacArea => g.engines.map (·.area)

/-- The outputs, aviary/subsystems/aerodynamics/gasp_based/gaspaero.py:754-768. -/
inductive Out
  | sa1 | sa2 | sa3 | sa4 | sa5 | sa6 | sa7 | cf
  deriving DecidableEq

/-- aviary/subsystems/aerodynamics/gasp_based/gaspaero.py:1052-1059 -/
noncomputable def Geom.out (g : Geom) : Out → ℝ
  | .sa1 => g.sa1 | .sa2 => g.sa2 | .sa3 => g.sa3 | .sa4 => g.sa4 | .sa5 => g.sa5 | .sa6 => g.sa6 | .sa7 => g.sa7 | .cf => g.cf

/-- aviary/subsystems/aerodynamics/gasp_based/gaspaero.py:847-871 -/
def mostParams : List Nm :=
  [.ffWing, .ffFus, .ffNac, .ffVtail, .ffHtail, .wfIntf, .strutIntf, .cd0Inc, .feFusInc, .taper, .strutRatio, .chord, .htChord,
    .vtChord, .fusLen, .nacLen, .htArea, .fusArea, .nacArea, .wingArea, .vtArea, .feInt, .shield]

/-- aviary/subsystems/aerodynamics/gasp_based/gaspaero.py:873-884 -/
def dragFactors : List Nm := [.fFus, .fHt, .fInt, .fNac, .fPyl, .fStrut, .fVt, .fWing, .fExcr, .pctExcr]

/-- The inputs each output is declared to depend on; all other partials are declared to be zero,
aviary/subsystems/aerodynamics/gasp_based/gaspaero.py:770-894. -/
def declared : Out → List Nm
  | .sa1 => [.xmp, .xmt, .ar, .sweep, .taper, .tc]
  | .sa2 => [.xmp, .xmt, .ar, .sweep, .taper]
  | .sa3 => [.ar, .sweep, .taper, .tc]
  | .sa4 => [.tc]
  | .cf => [.mach]
  | .sa5 => [.mach, .sos, .nu] ++ mostParams ++ dragFactors
  | .sa6 => [.mach, .sos, .nu, .ffWing, .chord]
  | .sa7 => [.mach, .sos, .nu, .ufac] ++ mostParams ++ [.ar, .sweep, .siwb]

/-! ## Drag coefficients -/

/-- The inputs of `DragCoefClean` at one node, aviary/subsystems/aerodynamics/gasp_based/gaspaero.py:1401-1415. -/
structure Clean where
  mach : ℝ
  cl : ℝ
  shift : ℝ
  subFactor : ℝ
  supFactor : ℝ
  liftFactor : ℝ
  zeroFactor : ℝ
  fcmpc : ℝ
  cf : ℝ
  sa1 : ℝ
  sa2 : ℝ
  sa5 : ℝ
  sa6 : ℝ
  sa7 : ℝ

/-- aviary/subsystems/aerodynamics/gasp_based/gaspaero.py:1417 -/
noncomputable def Clean.machDiv (c : Clean) : ℝ := c.sa1 + c.sa2 * c.cl + c.shift

/-- aviary/subsystems/aerodynamics/gasp_based/gaspaero.py:1419-1420 -/
noncomputable def Clean.delcdm (c : Clean) : ℝ := sigX c.mach c.machDiv 0.005 * (10 * (c.mach - c.machDiv) ^ 3)

/-- aviary/subsystems/aerodynamics/gasp_based/gaspaero.py:1427-1431 -/
noncomputable def Clean.cd (c : Clean) : ℝ :=
  (c.sa5 + c.sa6 * c.cf) * c.zeroFactor + c.sa7 * c.cl ^ 2 * c.liftFactor + c.fcmpc * c.delcdm

open Classical in
/-- The coefficients of all nodes, aviary/subsystems/aerodynamics/gasp_based/gaspaero.py:1433-1438: the indices of the nodes with
`mach >= 1`, then the product with the subsonic factor, then those entries set anew. The factors are inputs of the group and the
same at all nodes. -/
noncomputable def cdScaled (sub sup : ℝ) (cs : List Clean) : List ℝ :=
  let idx := (List.range cs.length).filter fun i => (cs[i]?.map fun c => decide (c.mach ≥ 1)).getD false
  let cd := cs.map Clean.cd
  idx.foldl (fun l i => l.set i ((cd[i]?.getD 0) * sup)) (cd.map (· * sub))

/-- The inputs of `DragCoef` at one node, aviary/subsystems/aerodynamics/gasp_based/gaspaero.py:1300-1318; `weight` is
`gross_wt_initial` of line 1319. -/
structure Low where
  alt : ℝ
  cl : ℝ
  weight : ℝ
  flap : ℝ
  height : ℝ
  airport : ℝ
  flapChord : ℝ
  dclFlaps : ℝ
  dcdFlaps : ℝ
  dclCoef : ℝ
  cdiFactor : ℝ
  chord : ℝ
  span : ℝ
  area : ℝ
  cf : ℝ
  sa5 : ℝ
  sa6 : ℝ
  sa7 : ℝ

namespace Low

/-- aviary/subsystems/aerodynamics/gasp_based/gaspaero.py:1327 -/
noncomputable def cdi (l : Low) : ℝ := l.sa7 * (l.cl - l.dclCoef * l.dclFlaps) ^ 2 / l.cdiFactor

/-- aviary/subsystems/aerodynamics/gasp_based/gaspaero.py:1330 -/
noncomputable def hac (l : Low) : ℝ := l.height + l.alt - l.airport

/-- `heff / wingspan`, aviary/subsystems/aerodynamics/gasp_based/gaspaero.py:1331-1333 -/
noncomputable def rel (l : Low) : ℝ := (2 * l.hac - sin (deg2rad l.flap) * l.flapChord * l.chord) / l.span

/-- aviary/subsystems/aerodynamics/gasp_based/gaspaero.py:1332 -/
noncomputable def sig (l : Low) : ℝ := exp (-2.48 * l.rel ^ (0.768 : ℝ))

/-- aviary/subsystems/aerodynamics/gasp_based/gaspaero.py:1333 -/
noncomputable def betag (l : Low) : ℝ := √(1 + l.rel ^ 2) - l.rel

/-- aviary/subsystems/aerodynamics/gasp_based/gaspaero.py:1334 -/
noncomputable def c1 (l : Low) : ℝ := l.betag * l.cl / (12.5664 * l.hac)

/-- aviary/subsystems/aerodynamics/gasp_based/gaspaero.py:1335 -/
noncomputable def ground (l : Low) : ℝ := -(l.sig - l.c1) * l.cdi / (1 - l.c1) - l.c1 * l.sa6 * l.cf

/-- aviary/subsystems/aerodynamics/gasp_based/gaspaero.py:1322, 1341 -/
noncomputable def cdBase (l : Low) : ℝ := (l.sa5 + l.sa6 * l.cf) + l.cdi + l.ground

/-- aviary/subsystems/aerodynamics/gasp_based/gaspaero.py:1338-1339, 1343 -/
noncomputable def gear (l : Low) : ℝ := 0.0033 * l.weight ^ (0.785 : ℝ) / l.area * (1 - 0.454545 * l.flap / 50)

end Low

/-- The inputs of `GroundEffect` at one node, aviary/subsystems/aerodynamics/gasp_based/gaspaero.py:1497-1511. -/
structure Ground where
  alpha : ℝ
  alt : ℝ
  slope : ℝ
  alpha0 : ℝ
  sweep : ℝ
  ar : ℝ
  height : ℝ
  airport : ℝ
  flap : ℝ
  flapChord : ℝ
  taper : ℝ
  dclFlaps : ℝ
  chord : ℝ
  span : ℝ

namespace Ground

/-- aviary/subsystems/aerodynamics/gasp_based/gaspaero.py:1514 -/
noncomputable def hac (l : Ground) : ℝ := l.height + l.alt - l.airport

/-- `heff / wingspan`, aviary/subsystems/aerodynamics/gasp_based/gaspaero.py:1515-1517 -/
noncomputable def rel (l : Ground) : ℝ := (2 * l.hac - sin (deg2rad l.flap) * l.flapChord * l.chord) / l.span

/-- aviary/subsystems/aerodynamics/gasp_based/gaspaero.py:1516 -/
noncomputable def sig (l : Ground) : ℝ := exp (-2.48 * l.rel ^ (0.768 : ℝ))

/-- aviary/subsystems/aerodynamics/gasp_based/gaspaero.py:1517 -/
noncomputable def betag (l : Ground) : ℝ := (1 + l.rel ^ 2) ^ (0.5 : ℝ) - l.rel

/-- aviary/subsystems/aerodynamics/gasp_based/gaspaero.py:1518-1520, with the arc tangent of the quotient for `arctan2` -/
noncomputable def rlmc2 (l : Ground) : ℝ :=
  arctan ((l.ar * tan (deg2rad l.sweep) - (1 - l.taper) / (1 + l.taper)) / l.ar)

/-- aviary/subsystems/aerodynamics/gasp_based/gaspaero.py:1521 -/
noncomputable def c3 (l : Ground) : ℝ := 2 * cos l.rlmc2 + √(l.ar ^ 2 + (2 * cos l.rlmc2) ^ 2)

/-- aviary/subsystems/aerodynamics/gasp_based/gaspaero.py:1522 -/
noncomputable def c4 (l : Ground) : ℝ := l.betag / (12.5664 * l.hac / l.chord)

/-- aviary/subsystems/aerodynamics/gasp_based/gaspaero.py:1523 -/
noncomputable def cloge (l : Ground) : ℝ := l.slope * deg2rad (l.alpha - l.alpha0) + l.dclFlaps

/-- aviary/subsystems/aerodynamics/gasp_based/gaspaero.py:1524-1529 -/
noncomputable def raw (l : Ground) : ℝ :=
  1 + l.sig - l.sig * l.ar * cos l.rlmc2 / l.c3 - l.c4 * (l.cloge - l.slope / (16 * l.hac / l.chord))

open Classical in
/-- aviary/subsystems/aerodynamics/gasp_based/gaspaero.py:1530-1538 -/
noncomputable def kclge (l : Ground) : ℝ := if l.hac / l.span ≥ 10 then 1 else max l.raw 1

end Ground

end Verif.GaspDrag
