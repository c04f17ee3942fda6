import Verif.Model.SmoothMath

/-! # The lift interference factor of the GASP aerodynamics

`UFac` of aviary/subsystems/aerodynamics/gasp_based/gaspaero.py.  Numbers are real numbers; the nodes
are independent of one another and one node is modelled. -/

namespace Verif.UFac
open Real

/-- The design types and, for a blended wing body, the option `smooth_ufac` with `mu`,
aviary/subsystems/aerodynamics/gasp_based/gaspaero.py:551-553. -/
inductive Kind
  | transport
  | bwb
  | bwbSmooth (mu : ℝ)

/-- The inputs, aviary/subsystems/aerodynamics/gasp_based/gaspaero.py:557-562. -/
structure In where
  ratio : ℝ
  bbar : ℝ
  sigma : ℝ
  sigstr : ℝ
  span : ℝ

/-- The denominator, aviary/subsystems/aerodynamics/gasp_based/gaspaero.py:594, 602, 621. -/
noncomputable def denom (l b σ σs : ℝ) : ℝ := σs * (l / b) ^ 2 + 2 * σ * l / b + 1

/-- `ufac` before any limit, aviary/subsystems/aerodynamics/gasp_based/gaspaero.py:593-595, 601-603. -/
noncomputable def raw (l b σ σs : ℝ) : ℝ := (1 + l) ^ 2 / denom l b σ σs

open Classical in
/-- `bbar` as it is used for a blended wing body, aviary/subsystems/aerodynamics/gasp_based/gaspaero.py:599-600. -/
noncomputable def bbarBwb (i : In) : ℝ := if i.bbar < 1 / 100 * i.span then 1 else i.bbar

/-- `compute`, aviary/subsystems/aerodynamics/gasp_based/gaspaero.py:584-611. -/
noncomputable def ufac (k : Kind) (i : In) : ℝ :=
  match k with
  | .transport => raw i.ratio i.bbar i.sigma i.sigstr
  | .bwb => min (raw i.ratio (bbarBwb i) i.sigma i.sigstr) (975 / 1000)
  | .bwbSmooth mu => smoothMin (raw i.ratio (bbarBwb i) i.sigma i.sigstr) (975 / 1000) mu

/-- The inputs with respect to which partials are declared, aviary/subsystems/aerodynamics/gasp_based/gaspaero.py:566-582: not the span. -/
inductive Wrt
  | ratio | bbar | sigma | sigstr
  deriving DecidableEq

/-- The input named by `w`. Part of the model of aviary/subsystems/aerodynamics/gasp_based/gaspaero.py:566-582. -/
def In.get (i : In) : Wrt → ℝ
  | .ratio => i.ratio | .bbar => i.bbar | .sigma => i.sigma | .sigstr => i.sigstr

/-- The inputs with the input named by `w` replaced.
Part of the model of aviary/subsystems/aerodynamics/gasp_based/gaspaero.py:566-582. -/
def In.set (i : In) : Wrt → ℝ → In
  | .ratio, t => { i with ratio := t } | .bbar, t => { i with bbar := t }
  | .sigma, t => { i with sigma := t } | .sigstr, t => { i with sigstr := t }

/-- The derivatives before the limit, aviary/subsystems/aerodynamics/gasp_based/gaspaero.py:620-636; `bbar` is the input itself for every design
type. -/
noncomputable def dRaw (i : In) : Wrt → ℝ
  | .ratio =>
      (2 * (1 + i.ratio) / i.bbar * denom i.ratio i.bbar i.sigma i.sigstr
        - (1 + i.ratio) ^ 2 * (2 * i.sigstr * (i.ratio / i.bbar) / i.bbar + 2 * i.sigma / i.bbar))
        / denom i.ratio i.bbar i.sigma i.sigstr ^ 2
  | .bbar =>
      -((1 + i.ratio) ^ 2) * (-2 * i.sigstr * (i.ratio / i.bbar) * i.ratio / i.bbar ^ 2
        - 2 * i.sigma * i.ratio / i.bbar ^ 2) / denom i.ratio i.bbar i.sigma i.sigstr ^ 2
  | .sigma => -((1 + i.ratio) ^ 2) * 2 * i.ratio / i.bbar / denom i.ratio i.bbar i.sigma i.sigstr ^ 2
  | .sigstr =>
      -((1 + i.ratio) ^ 2) * (i.ratio / i.bbar) ^ 2 / denom i.ratio i.bbar i.sigma i.sigstr ^ 2

open Classical in
/-- The factor of the limit, aviary/subsystems/aerodynamics/gasp_based/gaspaero.py:638-655. -/
noncomputable def limit (k : Kind) (i : In) : ℝ :=
  match k with
  | .transport => 1
  | .bwb => if raw i.ratio i.bbar i.sigma i.sigstr < 975 / 1000 then 1 else 0
  | .bwbSmooth mu => dSmoothMin (raw i.ratio i.bbar i.sigma i.sigstr) (975 / 1000) mu

/-- `compute_partials`, aviary/subsystems/aerodynamics/gasp_based/gaspaero.py:613-660; the entry by the lift ratio (:657) has no limit. -/
noncomputable def part (k : Kind) (i : In) : Wrt → ℝ
  | .ratio => dRaw i .ratio
  | w => limit k i * dRaw i w

end Verif.UFac
