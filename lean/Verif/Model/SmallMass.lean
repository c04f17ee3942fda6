import Mathlib.Analysis.SpecialFunctions.Pow.Real
import Mathlib.Analysis.SpecialFunctions.Trigonometric.Basic
import Mathlib.Algebra.Order.Floor.Ring
import Mathlib.Data.Rat.Floor

/-!
# Payload, cargo containers, emergency equipment, fuel capacities and the implicit wing mass

Real numbers replace floats; `GRAV_ENGLISH_LBM` is 1 (aviary/constants.py:41) and is left out.
-/

namespace Verif.SmallMass
open Real

/-! ## aviary/subsystems/mass/flops_based/payload.py -/

/-- `pax_mass`, aviary/subsystems/mass/flops_based/payload.py:106. -/
def paxMass (n m : ℝ) : ℝ := m * n

/-- `baggage_mass`, aviary/subsystems/mass/flops_based/payload.py:107. -/
def baggage (n b : ℝ) : ℝ := b * n

/-- `pax_payload`, aviary/subsystems/mass/flops_based/payload.py:108. -/
def paxPayload (n m b : ℝ) : ℝ := paxMass n m + baggage n b

/-- `CargoMass.compute`, aviary/subsystems/mass/flops_based/payload.py:57-61. -/
def cargo (wing misc : ℝ) : ℝ := wing + misc

/-- `TotalPayload.compute`, aviary/subsystems/mass/flops_based/payload.py:38-42. -/
def totalPayload (pax cargoMass : ℝ) : ℝ := pax + cargoMass

/-- `TOTAL_PAYLOAD_MASS` of the group, aviary/subsystems/mass/flops_based/payload.py:13-21: components joined
by name. -/
def groupPayload (n m b wing misc : ℝ) : ℝ := totalPayload (paxPayload n m b) (cargo wing misc)

/-! ## aviary/subsystems/mass/gasp_based/fixed.py, `PayloadGroup` -/

/-- The four outputs, aviary/subsystems/mass/gasp_based/fixed.py:308-320. -/
structure GaspPayload where
  passengers : ℝ
  design : ℝ
  maximum : ℝ
  total : ℝ

/-- `PayloadGroup.compute`, aviary/subsystems/mass/gasp_based/fixed.py:308-320. -/
def gaspPayload (pax paxDes m c cDes cMax : ℝ) : GaspPayload :=
  { passengers := m * pax, design := m * paxDes + cDes, maximum := m * paxDes + cMax,
    total := m * pax + c }

/-! ## aviary/subsystems/mass/gasp_based/cargo_containers.py -/

/-- Python's `int` of a float, used at aviary/subsystems/mass/gasp_based/cargo_containers.py:35: truncation
toward zero. -/
def pyInt (x : ℚ) : ℤ := if 0 ≤ x then ⌊x⌋ else ⌈x⌉

/-- Number of containers, aviary/subsystems/mass/gasp_based/cargo_containers.py:35. -/
def containers (pax : ℕ) (uld : ℚ) : ℤ := pyInt (pax * uld) + 1

/-- `CargoContainerMass.compute`, aviary/subsystems/mass/gasp_based/cargo_containers.py:25-36. -/
def containerMass (pax : ℕ) (uld : ℚ) : ℚ := containers pax uld * 165

/-! ## aviary/subsystems/mass/gasp_based/emergency_equipment.py -/

/-- `num_flight_attendants`, aviary/subsystems/mass/gasp_based/emergency_equipment.py:28-40. -/
def attendants (pax : ℕ) : ℕ :=
  if pax ≥ 251 then 6 else if pax ≥ 201 then 5 else if pax ≥ 151 then 4 else if pax ≥ 101 then 3
  else if pax ≥ 51 then 2 else if pax ≥ 20 then 1 else 0

/-- `emergency_wt`, aviary/subsystems/mass/gasp_based/emergency_equipment.py:42-48. -/
def emergency (pax : ℕ) : ℕ :=
  if pax ≥ 35 then 25 * attendants pax + 15 else if pax > 9 then 15 else if pax > 5 then 10 else 0

/-! ## aviary/subsystems/mass/flops_based/fuel_capacity.py -/

/-- `FuselageFuelCapacity.compute`, aviary/subsystems/mass/flops_based/fuel_capacity.py:58-61. -/
def fusCap (max wing : ℝ) : ℝ := max - wing

/-- `AuxFuelCapacity.compute`, aviary/subsystems/mass/flops_based/fuel_capacity.py:88-93. -/
def auxCap (max wing fus : ℝ) : ℝ := max - wing - fus

/-- `TotalFuelCapacity.compute`, aviary/subsystems/mass/flops_based/fuel_capacity.py:96-135. -/
def totCap (wing fus aux : ℝ) : ℝ := wing + fus + aux

/-- The values the user gave for the fuselage, auxiliary and total capacity (an output given by the user is
replaced by that value, aviary/variable_info/functions.py:280-395). Part of the model of
aviary/subsystems/mass/flops_based/fuel_capacity.py:9-38. -/
structure Given where
  fus : Option ℝ := none
  aux : Option ℝ := none
  max : Option ℝ := none

/-- Values of fuselage, auxiliary and total capacity that satisfy all equations of the group,
aviary/subsystems/mass/flops_based/fuel_capacity.py:9-38, for the capacity `w` of the wing. -/
def Consistent (g : Given) (w f a m : ℝ) : Prop :=
  f = g.fus.getD (fusCap m w) ∧ a = g.aux.getD (auxCap m w f) ∧ m = g.max.getD (totCap w f a)

/-- One pass over the components in the order of aviary/subsystems/mass/flops_based/fuel_capacity.py:13-38, from
the stored total `m0` (nothing given by the user): fuselage, auxiliary, total. -/
def onePass (w m0 : ℝ) : ℝ × ℝ × ℝ :=
  let f := fusCap m0 w
  let a := auxCap m0 w f
  (f, a, totCap w f a)

/-! ## aviary/subsystems/mass/gasp_based/wing.py, `WingMassSolve` -/

/-- Inputs of `WingMassSolve` and its output `x` (`isolated_wing_mass`),
aviary/subsystems/mass/gasp_based/wing.py:18-45. -/
structure WIn where
  gross : ℝ
  high : ℝ
  strut : ℝ
  ulf : ℝ
  cw : ℝ
  cm : ℝ
  ce : ℝ
  cg : ℝ
  span : ℝ
  tr : ℝ
  tc : ℝ
  sw : ℝ
  x : ℝ

/-- `foo`, aviary/subsystems/mass/gasp_based/wing.py:65. -/
noncomputable def WIn.foo (i : WIn) : ℝ := (i.strut * i.ulf * (i.gross - 0.8 * i.x)) ^ (0.757 : ℝ)

/-- The residual, aviary/subsystems/mass/gasp_based/wing.py:49-76. -/
noncomputable def WIn.res (i : WIn) : ℝ :=
  i.x - ((i.cw * i.cm * i.ce * i.cg * i.foo * i.span ^ (1.049 : ℝ) * (1 + i.tr) ^ (0.4 : ℝ)) /
    (100000 * i.tc ^ (0.4 : ℝ) * cos i.sw ^ (1.535 : ℝ)) + i.high)

/-- The factor that three entries share, aviary/subsystems/mass/gasp_based/wing.py:97-107. -/
noncomputable def WIn.fac (i : WIn) : ℝ :=
  (i.cw * i.cm * i.ce * i.cg * i.span ^ (1.049 : ℝ) * (1 + i.tr) ^ (0.4 : ℝ)) /
    (100000 * i.tc ^ (0.4 : ℝ) * cos i.sw ^ (1.535 : ℝ)) * 0.757 *
    (i.strut * i.ulf * (i.gross - 0.8 * i.x)) ^ (-0.243 : ℝ)

/-- Entry by the gross mass, aviary/subsystems/mass/gasp_based/wing.py:97-110. -/
noncomputable def WIn.jGross (i : WIn) : ℝ := -i.fac * i.strut * i.ulf
/-- Entry by the high lift mass, aviary/subsystems/mass/gasp_based/wing.py:111. -/
def WIn.jHigh (_ : WIn) : ℝ := -1
/-- Entry by `c_strut_braced`, aviary/subsystems/mass/gasp_based/wing.py:112-127. -/
noncomputable def WIn.jStrut (i : WIn) : ℝ := -i.fac * i.ulf * (i.gross - 0.8 * i.x)
/-- Entry by the load factor, aviary/subsystems/mass/gasp_based/wing.py:128-143. -/
noncomputable def WIn.jUlf (i : WIn) : ℝ := -i.fac * i.strut * (i.gross - 0.8 * i.x)
/-- Denominator of the guess, aviary/subsystems/mass/gasp_based/wing.py:74, 152. -/
noncomputable def WIn.den (i : WIn) : ℝ := 100000 * i.tc ^ (0.4 : ℝ) * cos i.sw ^ (1.535 : ℝ)
/-- Entry by the mass coefficient, aviary/subsystems/mass/gasp_based/wing.py:144-152. -/
noncomputable def WIn.jCw (i : WIn) : ℝ :=
  -(i.cm * i.ce * i.cg * i.foo * i.span ^ (1.049 : ℝ) * (1 + i.tr) ^ (0.4 : ℝ)) / i.den
/-- Entry by the material factor, aviary/subsystems/mass/gasp_based/wing.py:153-161. -/
noncomputable def WIn.jCm (i : WIn) : ℝ :=
  -(i.cw * i.ce * i.cg * i.foo * i.span ^ (1.049 : ℝ) * (1 + i.tr) ^ (0.4 : ℝ)) / i.den
/-- Entry by the engine position factor, aviary/subsystems/mass/gasp_based/wing.py:162-170. -/
noncomputable def WIn.jCe (i : WIn) : ℝ :=
  -(i.cw * i.cm * i.cg * i.foo * i.span ^ (1.049 : ℝ) * (1 + i.tr) ^ (0.4 : ℝ)) / i.den
/-- Entry by `c_gear_loc`, aviary/subsystems/mass/gasp_based/wing.py:171-179. -/
noncomputable def WIn.jCg (i : WIn) : ℝ :=
  -(i.cw * i.cm * i.ce * i.foo * i.span ^ (1.049 : ℝ) * (1 + i.tr) ^ (0.4 : ℝ)) / i.den
/-- Entry by the span, aviary/subsystems/mass/gasp_based/wing.py:180-193. -/
noncomputable def WIn.jSpan (i : WIn) : ℝ :=
  -1.049 * (i.cw * i.cm * i.ce * i.cg * i.foo * i.span ^ (0.049 : ℝ) * (1 + i.tr) ^ (0.4 : ℝ)) / i.den
/-- Entry by the taper ratio, aviary/subsystems/mass/gasp_based/wing.py:194-207. -/
noncomputable def WIn.jTr (i : WIn) : ℝ :=
  -0.4 * (i.cw * i.cm * i.ce * i.cg * i.foo * i.span ^ (1.049 : ℝ) * (1 + i.tr) ^ (-0.6 : ℝ)) / i.den
/-- Entry by the thickness of the root, aviary/subsystems/mass/gasp_based/wing.py:208-221. -/
noncomputable def WIn.jTc (i : WIn) : ℝ :=
  0.4 * (i.cw * i.cm * i.ce * i.cg * i.foo * i.span ^ (1.049 : ℝ) * (1 + i.tr) ^ (0.4 : ℝ)) /
    (100000 * i.tc ^ (1.4 : ℝ) * cos i.sw ^ (1.535 : ℝ))
/-- Entry by the sweep, aviary/subsystems/mass/gasp_based/wing.py:222-236. -/
noncomputable def WIn.jSw (i : WIn) : ℝ :=
  1.535 * (i.cw * i.cm * i.ce * i.cg * i.foo * i.span ^ (1.049 : ℝ) * (1 + i.tr) ^ (0.4 : ℝ)) /
    (100000 * i.tc ^ (0.4 : ℝ) * cos i.sw ^ (2.535 : ℝ)) * (-sin i.sw)
/-- Entry by the wing mass itself, aviary/subsystems/mass/gasp_based/wing.py:237-251. -/
noncomputable def WIn.jX (i : WIn) : ℝ := 1 - i.fac * (-0.8) * i.strut * i.ulf

end Verif.SmallMass
