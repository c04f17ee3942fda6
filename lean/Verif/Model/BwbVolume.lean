import Verif.Model.SmoothMath
import Mathlib.Analysis.SpecialFunctions.Pow.Real

/-!
# The fuel volume of the wing of a blended wing body

`BWBWingVolume` of aviary/subsystems/geometry/gasp_based/wing.py:483-866 over the real numbers, with and without smoothing.  Folded
wings only change the name of the output.  The printed warnings are left out.
-/

namespace Verif.BwbVolume

/-- The inputs of `BWBWingVolume`, aviary/subsystems/geometry/gasp_based/wing.py:552-559. -/
structure Inp where
  taper : ℝ
  gear : ℝ
  tcr : ℝ
  tct : ℝ
  width : ℝ
  span : ℝ
  frac : ℝ
  chord : ℝ

/-- The width of the bay of the gear, aviary/subsystems/geometry/gasp_based/wing.py:561-567.  Inputs are arrays of one element. -/
noncomputable def wid (smooth : Bool) (mu gear : ℝ) : Except Err ℝ :=
  if smooth then (sigmoidArr gear 0 mu).map (fun s => 6 * s) else .ok (if gear > 0 then 6 else 0)

/-- `dWID_GRX_dloc_main_gear`, aviary/subsystems/geometry/gasp_based/wing.py:613-621. -/
noncomputable def dWid (smooth : Bool) (mu gear : ℝ) : Except Err ℝ :=
  if smooth then (dSigmoidArr gear 0 mu).map (fun s => s / mu) else .ok 0

/-- `CTIP`, aviary/subsystems/geometry/gasp_based/wing.py:569. -/
noncomputable def ctip (p : Inp) : ℝ := p.taper * p.chord

/-- `TCF`, aviary/subsystems/geometry/gasp_based/wing.py:570-573, 623-626. -/
noncomputable def tcf (p : Inp) (w : ℝ) : ℝ := p.tcr - 2 * (0.5 * p.width + w) * (p.tcr - p.tct) / p.span

/-- `CFUEL`, aviary/subsystems/geometry/gasp_based/wing.py:574-576. -/
noncomputable def cfuel (p : Inp) (w : ℝ) : ℝ := p.chord + 2 * (0.5 * p.width + w) * (ctip p - p.chord) / p.span

/-- `SW_NFX`, aviary/subsystems/geometry/gasp_based/wing.py:580. -/
noncomputable def sw (p : Inp) (w : ℝ) : ℝ := (0.5 * p.span - (0.5 * p.width + w)) * (cfuel p w + ctip p)

/-- `SLM_NFX`, aviary/subsystems/geometry/gasp_based/wing.py:584. -/
noncomputable def slm (p : Inp) (w : ℝ) : ℝ := ctip p / cfuel p w

/-- `AR_NFX`, aviary/subsystems/geometry/gasp_based/wing.py:585. -/
noncomputable def ar (p : Inp) (w : ℝ) : ℝ := (p.span - p.width - 2 * w) ^ 2 / sw p w

/-- `TCM`, aviary/subsystems/geometry/gasp_based/wing.py:589. -/
noncomputable def tcm (p : Inp) (w : ℝ) : ℝ := 0.5 * (tcf p w + p.tct)

/-- `numer`, aviary/subsystems/geometry/gasp_based/wing.py:592. -/
noncomputable def numer (p : Inp) (w : ℝ) : ℝ := p.frac * 0.888889 * tcm p w * sw p w ^ (1.5 : ℝ) * (2 * slm p w + 1)

/-- `denom`, aviary/subsystems/geometry/gasp_based/wing.py:593. -/
noncomputable def denom (p : Inp) (w : ℝ) : ℝ := ar p w ^ (0.5 : ℝ) * (slm p w + 1) ^ 2

/-- `FVOLW_GEOM`, aviary/subsystems/geometry/gasp_based/wing.py:594. -/
noncomputable def vol (p : Inp) (w : ℝ) : ℝ := numer p w / denom p w

/-- The names of the inputs, aviary/subsystems/geometry/gasp_based/wing.py:532-544. -/
inductive Var | frac | gear | taper | chord | tcr | tct | width | span
  deriving DecidableEq, Repr

/-- `dTCF_…`; `dw` is the derivative of the width of the bay.  aviary/subsystems/geometry/gasp_based/wing.py:627-637. -/
noncomputable def dTCF (p : Inp) (w dw : ℝ) : Var → ℝ
  | .gear => -2 * dw * (p.tcr - p.tct) / p.span
  | .tcr => 1 - 2 * (0.5 * p.width + w) / p.span
  | .tct => 2 * (0.5 * p.width + w) / p.span
  | .width => -(p.tcr - p.tct) / p.span
  | .span => 2 * (0.5 * p.width + w) * (p.tcr - p.tct) / p.span ^ 2
  | _ => 0

/-- `dCFUEL_…`, aviary/subsystems/geometry/gasp_based/wing.py:643-655. -/
noncomputable def dCFUEL (p : Inp) (w dw : ℝ) : Var → ℝ
  | .chord => 1 + 2 * (0.5 * p.width + w) * (p.taper - 1) / p.span
  | .width => (p.taper - 1) * p.chord / p.span
  | .gear => 2 * dw * (p.taper - 1) / p.span
  | .taper => 2 * (0.5 * p.width + w) * p.chord / p.span
  | .span => -2 * (0.5 * p.width + w) * (p.taper - 1) * p.chord / p.span ^ 2
  | _ => 0

/-- `dSW_NFX_…`, aviary/subsystems/geometry/gasp_based/wing.py:660-674. -/
noncomputable def dSW (p : Inp) (w dw : ℝ) : Var → ℝ
  | .chord => (0.5 * p.span - (0.5 * p.width + w)) * (dCFUEL p w dw .chord + p.taper)
  | .width => -0.5 * (cfuel p w + p.taper * p.chord) + (0.5 * p.span - (0.5 * p.width + w)) * dCFUEL p w dw .width
  | .gear => -dw * (cfuel p w + p.taper * p.chord)
  | .taper => (0.5 * p.span - (0.5 * p.width + w)) * (dCFUEL p w dw .taper + p.chord)
  | .span => 0.5 * (cfuel p w + p.taper * p.chord) + (0.5 * p.span - (0.5 * p.width + w)) * dCFUEL p w dw .span
  | _ => 0

/-- `dtaper_ratio_NFX_…`, aviary/subsystems/geometry/gasp_based/wing.py:676-687. -/
noncomputable def dSLM (p : Inp) (w dw : ℝ) : Var → ℝ
  | .taper => p.chord / cfuel p w - p.taper * p.chord * dCFUEL p w dw .taper / cfuel p w ^ 2
  | .chord => p.taper / cfuel p w - p.taper * p.chord * dCFUEL p w dw .chord / cfuel p w ^ 2
  | .width => -p.taper * p.chord * dCFUEL p w dw .width / cfuel p w ^ 2
  | .gear => -p.taper * p.chord * dCFUEL p w dw .gear / cfuel p w ^ 2
  | .span => -p.taper * p.chord * dCFUEL p w dw .span / cfuel p w ^ 2
  | _ => 0

/-- `dAR_NFX_…`, aviary/subsystems/geometry/gasp_based/wing.py:690-708. -/
noncomputable def dAR (p : Inp) (w dw : ℝ) : Var → ℝ
  | .taper => -((p.span - p.width - 2 * w) ^ 2) * dSW p w dw .taper / sw p w ^ 2
  | .chord => -((p.span - p.width - 2 * w) ^ 2) * dSW p w dw .chord / sw p w ^ 2
  | .width => -2 * (p.span - p.width - 2 * w) / sw p w - (p.span - p.width - 2 * w) ^ 2 * dSW p w dw .width / sw p w ^ 2
  | .gear => -((p.span - p.width - 2 * w) ^ 2) * dSW p w dw .gear / sw p w ^ 2
  | .span => 2 * (p.span - p.width - 2 * w) / sw p w - (p.span - p.width - 2 * w) ^ 2 * dSW p w dw .span / sw p w ^ 2
  | _ => 0

/-- `dTCM_…`, aviary/subsystems/geometry/gasp_based/wing.py:710-717. -/
noncomputable def dTCM (p : Inp) (w dw : ℝ) : Var → ℝ
  | .tct => 0.5 * dTCF p w dw .tct + 0.5
  | v => 0.5 * dTCF p w dw v

/-- `dnumer_…`, aviary/subsystems/geometry/gasp_based/wing.py:719-785. -/
noncomputable def dNumer (p : Inp) (w dw : ℝ) : Var → ℝ
  | .frac => 0.888889 * tcm p w * sw p w ^ (1.5 : ℝ) * (2 * slm p w + 1)
  | .tcr => p.frac * 0.888889 * dTCM p w dw .tcr * sw p w ^ (1.5 : ℝ) * (2 * slm p w + 1)
  | .tct => p.frac * 0.888889 * dTCM p w dw .tct * sw p w ^ (1.5 : ℝ) * (2 * slm p w + 1)
  | v => p.frac * 0.888889 * dTCM p w dw v * sw p w ^ (1.5 : ℝ) * (2 * slm p w + 1)
      + p.frac * 0.888889 * tcm p w * 1.5 * dSW p w dw v * sw p w ^ (0.5 : ℝ) * (2 * slm p w + 1)
      + p.frac * 0.888889 * tcm p w * sw p w ^ (1.5 : ℝ) * (2 * dSLM p w dw v)

/-- `ddenom_…`, aviary/subsystems/geometry/gasp_based/wing.py:787-806. -/
noncomputable def dDenom (p : Inp) (w dw : ℝ) : Var → ℝ
  | .frac => 0
  | .tcr => 0
  | .tct => 0
  | v => 0.5 * dAR p w dw v / ar p w ^ (0.5 : ℝ) * (slm p w + 1) ^ 2 + 2 * ar p w ^ (0.5 : ℝ) * dSLM p w dw v * (slm p w + 1)

/-- `dFVOLW_GEOM_…`, the entry that is stored, aviary/subsystems/geometry/gasp_based/wing.py:808-866. -/
noncomputable def jac (p : Inp) (w dw : ℝ) (v : Var) : ℝ :=
  (dNumer p w dw v * denom p w - numer p w * dDenom p w dw v) / denom p w ^ 2

/-- One input replaced.  aviary/subsystems/geometry/gasp_based/wing.py:552-559. -/
def Inp.put (p : Inp) (x : ℝ) : Var → Inp
  | .frac => { p with frac := x }
  | .gear => { p with gear := x }
  | .taper => { p with taper := x }
  | .chord => { p with chord := x }
  | .tcr => { p with tcr := x }
  | .tct => { p with tct := x }
  | .width => { p with width := x }
  | .span => { p with span := x }

/-- The value of one input.  aviary/subsystems/geometry/gasp_based/wing.py:552-559. -/
def Inp.get (p : Inp) : Var → ℝ
  | .frac => p.frac
  | .gear => p.gear
  | .taper => p.taper
  | .chord => p.chord
  | .tcr => p.tcr
  | .tct => p.tct
  | .width => p.width
  | .span => p.span

/-- `compute`: the volume, or the exception of the smoothing.  aviary/subsystems/geometry/gasp_based/wing.py:546-598. -/
noncomputable def compute (smooth : Bool) (mu : ℝ) (p : Inp) : Except Err ℝ :=
  (wid smooth mu p.gear).map (vol p)

end Verif.BwbVolume
