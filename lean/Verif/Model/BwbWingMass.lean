import Verif.Model.SmallMass

/-!
# Wing mass of a blended wing body (GASP)

Hand-written model of `BWBWingMassSolve`, aviary/subsystems/mass/gasp_based/wing.py:399-686. Real numbers replace floats;
`GRAV_ENGLISH_LBM` is 1.
-/

namespace Verif.BwbWingMass
open Real Verif.SmallMass

/-- Inputs and output of `BWBWingMassSolve`, aviary/subsystems/mass/gasp_based/wing.py:405-437: those of `WingMassSolve`, the width of the
cabin and the ratio of the lift coefficients of body and wing. -/
structure BIn where
  w : WIn
  cab : ℝ
  r : ℝ

/-- `foo_numer`, aviary/subsystems/mass/gasp_based/wing.py:457. -/
noncomputable def BIn.numer (i : BIn) : ℝ := i.w.strut * i.w.ulf * (i.w.gross - 0.8 * i.w.x)
/-- `foo_denom`, aviary/subsystems/mass/gasp_based/wing.py:458. -/
noncomputable def BIn.denom (i : BIn) : ℝ := 1 + i.r
/-- `foo`, aviary/subsystems/mass/gasp_based/wing.py:459. -/
noncomputable def BIn.foo (i : BIn) : ℝ := (i.numer / i.denom) ^ (0.757 : ℝ)
/-- `wingspan_mod`, aviary/subsystems/mass/gasp_based/wing.py:460. -/
noncomputable def BIn.span (i : BIn) : ℝ := i.w.span - i.cab

/-- The residual, aviary/subsystems/mass/gasp_based/wing.py:439-471. -/
noncomputable def BIn.res (i : BIn) : ℝ :=
  i.w.x - ((i.w.cw * i.w.cm * i.w.ce * i.w.cg * i.foo * i.span ^ (1.049 : ℝ) * (1 + i.w.tr) ^ (0.4 : ℝ)) /
    (100000 * i.w.tc ^ (0.4 : ℝ) * cos i.w.sw ^ (1.535 : ℝ)) + i.w.high)

/-- The factor that five entries share, aviary/subsystems/mass/gasp_based/wing.py:495-510. -/
noncomputable def BIn.fac (i : BIn) : ℝ :=
  (i.w.cw * i.w.cm * i.w.ce * i.w.cg * i.span ^ (1.049 : ℝ) * (1 + i.w.tr) ^ (0.4 : ℝ)) /
    (100000 * i.w.tc ^ (0.4 : ℝ) * cos i.w.sw ^ (1.535 : ℝ)) * 0.757 * (i.numer / i.denom) ^ (-0.243 : ℝ)

/-- Inputs by which partials are given, aviary/subsystems/mass/gasp_based/wing.py:405-437. -/
inductive Var | gross | high | strut | ulf | r | cw | cm | ce | cg | span | cab | tr | tc | sw | x

/-- The value of an input, aviary/subsystems/mass/gasp_based/wing.py:474-488. -/
def BIn.val (i : BIn) : Var → ℝ
  | .gross => i.w.gross | .high => i.w.high | .strut => i.w.strut | .ulf => i.w.ulf | .r => i.r | .cw => i.w.cw
  | .cm => i.w.cm | .ce => i.w.ce | .cg => i.w.cg | .span => i.w.span | .cab => i.cab | .tr => i.w.tr | .tc => i.w.tc
  | .sw => i.w.sw | .x => i.w.x

/-- One input changed, of those at aviary/subsystems/mass/gasp_based/wing.py:474-488. -/
def BIn.set (i : BIn) : Var → ℝ → BIn
  | .gross, t => { i with w := { i.w with gross := t } }
  | .high, t => { i with w := { i.w with high := t } }
  | .strut, t => { i with w := { i.w with strut := t } }
  | .ulf, t => { i with w := { i.w with ulf := t } }
  | .r, t => { i with r := t }
  | .cw, t => { i with w := { i.w with cw := t } }
  | .cm, t => { i with w := { i.w with cm := t } }
  | .ce, t => { i with w := { i.w with ce := t } }
  | .cg, t => { i with w := { i.w with cg := t } }
  | .span, t => { i with w := { i.w with span := t } }
  | .cab, t => { i with cab := t }
  | .tr, t => { i with w := { i.w with tr := t } }
  | .tc, t => { i with w := { i.w with tc := t } }
  | .sw, t => { i with w := { i.w with sw := t } }
  | .x, t => { i with w := { i.w with x := t } }

/-- Denominator of the guess, aviary/subsystems/mass/gasp_based/wing.py:469. -/
noncomputable def BIn.den (i : BIn) : ℝ := 100000 * i.w.tc ^ (0.4 : ℝ) * cos i.w.sw ^ (1.535 : ℝ)

/-- Partials of the residual, aviary/subsystems/mass/gasp_based/wing.py:495-686. -/
noncomputable def BIn.J (i : BIn) : Var → ℝ
  | .gross => -i.fac * i.w.strut / i.denom * i.w.ulf
  | .high => -1
  | .strut => -i.fac * i.w.ulf * (i.w.gross - 0.8 * i.w.x) / i.denom
  | .ulf => -i.fac * i.w.strut * (i.w.gross - 0.8 * i.w.x) / i.denom
  | .r => i.fac * i.numer / i.denom ^ 2
  | .cw => -(i.w.cm * i.w.ce * i.w.cg * i.foo * i.span ^ (1.049 : ℝ) * (1 + i.w.tr) ^ (0.4 : ℝ)) / i.den
  | .cm => -(i.w.cw * i.w.ce * i.w.cg * i.foo * i.span ^ (1.049 : ℝ) * (1 + i.w.tr) ^ (0.4 : ℝ)) / i.den
  | .ce => -(i.w.cw * i.w.cm * i.w.cg * i.foo * i.span ^ (1.049 : ℝ) * (1 + i.w.tr) ^ (0.4 : ℝ)) / i.den
  | .cg => -(i.w.cw * i.w.cm * i.w.ce * i.foo * i.span ^ (1.049 : ℝ) * (1 + i.w.tr) ^ (0.4 : ℝ)) / i.den
  | .span => -1.049 * (i.w.cw * i.w.cm * i.w.ce * i.w.cg * i.foo * i.span ^ (0.049 : ℝ) * (1 + i.w.tr) ^ (0.4 : ℝ)) / i.den
  | .cab => 1.049 * (i.w.cw * i.w.cm * i.w.ce * i.w.cg * i.foo * i.span ^ (0.049 : ℝ) * (1 + i.w.tr) ^ (0.4 : ℝ)) / i.den
  | .tr => -0.4 * (i.w.cw * i.w.cm * i.w.ce * i.w.cg * i.foo * i.span ^ (1.049 : ℝ) * (1 + i.w.tr) ^ (-0.6 : ℝ)) / i.den
  | .tc => 0.4 * (i.w.cw * i.w.cm * i.w.ce * i.w.cg * i.foo * i.span ^ (1.049 : ℝ) * (1 + i.w.tr) ^ (0.4 : ℝ)) /
      (100000 * i.w.tc ^ (1.4 : ℝ) * cos i.w.sw ^ (1.535 : ℝ))
  | .sw => 1.535 * (i.w.cw * i.w.cm * i.w.ce * i.w.cg * i.foo * i.span ^ (1.049 : ℝ) * (1 + i.w.tr) ^ (0.4 : ℝ)) /
      (100000 * i.w.tc ^ (0.4 : ℝ) * cos i.w.sw ^ (2.535 : ℝ)) * (-sin i.w.sw)
  | .x => 1 - i.fac * (-0.8) * i.w.strut / i.denom * i.w.ulf

end Verif.BwbWingMass
