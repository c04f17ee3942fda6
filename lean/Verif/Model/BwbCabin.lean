import Verif.Model.SmoothMath
import Mathlib.Analysis.SpecialFunctions.Sqrt
import Mathlib.Analysis.SpecialFunctions.Trigonometric.Basic
import Mathlib.Algebra.Order.Floor.Ring

/-!
# Cabin layout of a blended wing body (FLOPS)

Hand-written model of `BWBSimpleCabinLayout` and `BWBDetailedCabinLayout` of
aviary/subsystems/geometry/flops_based/fuselage.py:460-797. Real numbers replace floats.
-/

namespace Verif.BwbCabin
open Real

/-- Inputs and options of `BWBSimpleCabinLayout`, aviary/subsystems/geometry/flops_based/fuselage.py:463-475: fuselage
length and width, sweep (deg), thickness to chord, rear spar fractions at the centerline and the root, largest width of a
bay and largest number of bays. -/
structure Simple where
  len : ℝ
  width : ℝ
  sweep : ℝ
  tc : ℝ
  cl : ℝ
  root : ℝ
  bay : ℝ
  maxBays : ℤ

/-- aviary/subsystems/geometry/flops_based/fuselage.py:539. -/
noncomputable def Simple.cabin (s : Simple) : ℝ := s.cl * s.len

/-- aviary/subsystems/geometry/flops_based/fuselage.py:542. -/
noncomputable def Simple.tanSweep (s : Simple) : ℝ := tan (s.sweep / 57.296)

/-- aviary/subsystems/geometry/flops_based/fuselage.py:543. -/
noncomputable def Simple.sidewall (s : Simple) : ℝ := s.cabin - s.tanSweep * s.width / 2

/-- aviary/subsystems/geometry/flops_based/fuselage.py:544. -/
noncomputable def Simple.area (s : Simple) : ℝ := (s.cabin + s.sidewall) * s.width / 2

/-- aviary/subsystems/geometry/flops_based/fuselage.py:545. -/
noncomputable def Simple.height (s : Simple) : ℝ := s.tc * s.len

/-- aviary/subsystems/geometry/flops_based/fuselage.py:562. -/
noncomputable def Simple.chord (s : Simple) : ℝ := s.sidewall / s.root

/-- Number of bays before smoothing, aviary/subsystems/geometry/flops_based/fuselage.py:547-557. -/
noncomputable def Simple.bays (s : Simple) : ℤ :=
  let n := ⌈0.5 + s.width / s.bay⌉
  if s.maxBays < n ∧ 0 < s.maxBays then s.maxBays else n

/-- Outputs of `BWBSimpleCabinLayout`, aviary/subsystems/geometry/flops_based/fuselage.py:477-481. -/
structure SimpleOut where
  bays : ℝ
  cabin : ℝ
  chord : ℝ
  area : ℝ
  height : ℝ

/-- aviary/subsystems/geometry/flops_based/fuselage.py:518-564. The imaginary part of the smoothed number is dropped. -/
noncomputable def Simple.compute (s : Simple) : Except Err SimpleOut :=
  if s.len ≤ 0 then .error .valueError
  else if s.width ≤ 0 then .error .valueError
  else .ok ⟨smoothIntTanh s.bays 20, s.cabin, s.chord, s.area, s.height⟩

/-- `fact1`, aviary/subsystems/geometry/flops_based/fuselage.py:585. -/
noncomputable def Simple.fact1 (s : Simple) : ℝ := cos (s.sweep / 57.296) ^ 2

/-- Outputs that have partials, aviary/subsystems/geometry/flops_based/fuselage.py:483-516. -/
inductive Of | cabin | chord | area | height
/-- Inputs, aviary/subsystems/geometry/flops_based/fuselage.py:469-475. -/
inductive Wrt | len | width | sweep | tc | cl | root

/-- The value of an output, aviary/subsystems/geometry/flops_based/fuselage.py:558-564. -/
noncomputable def Simple.out (s : Simple) : Of → ℝ
  | .cabin => s.cabin | .chord => s.chord | .area => s.area | .height => s.height

/-- The value of an input, aviary/subsystems/geometry/flops_based/fuselage.py:521-540. -/
def Simple.val (s : Simple) : Wrt → ℝ
  | .len => s.len | .width => s.width | .sweep => s.sweep | .tc => s.tc | .cl => s.cl | .root => s.root

/-- One input changed, of those at
aviary/subsystems/geometry/flops_based/fuselage.py:469-475. -/
def Simple.set (s : Simple) : Wrt → ℝ → Simple
  | .len, t => { s with len := t }
  | .width, t => { s with width := t }
  | .sweep, t => { s with sweep := t }
  | .tc, t => { s with tc := t }
  | .cl, t => { s with cl := t }
  | .root, t => { s with root := t }

/-- Partials, aviary/subsystems/geometry/flops_based/fuselage.py:566-618; 0 where none is declared. -/
noncomputable def Simple.J (s : Simple) : Of → Wrt → ℝ
  | .cabin, .len => s.cl
  | .cabin, .cl => s.len
  | .chord, .len => s.cl / s.root
  | .chord, .cl => s.len / s.root
  | .chord, .sweep => -s.width / s.fact1 / 57.296 / 2 / s.root
  | .chord, .width => -s.tanSweep / 2 / s.root
  | .chord, .root => -s.sidewall / s.root ^ 2
  | .area, .len => s.cl * s.width
  | .area, .cl => s.len * s.width
  | .area, .sweep => -(s.width ^ 2) / 4 / s.fact1 / 57.296
  | .area, .width => s.cabin - s.tanSweep * s.width / 2
  | .height, .len => s.tc
  | .height, .tc => s.len
  | _, _ => 0

/-- Seats abreast or pitch of a class of the detailed layout with its default,
aviary/subsystems/geometry/flops_based/fuselage.py:677-699. -/
noncomputable def orDefault (x d : ℝ) : ℝ := if x ≤ 0 then d else x

/-- A class of the detailed layout: passengers, seats abreast and pitch (inch) as given,
aviary/subsystems/geometry/flops_based/fuselage.py:677-713. -/
structure Cls where
  n : ℕ
  abreast : ℤ
  pitch : ℝ

/-- Area of one seat, aviary/subsystems/geometry/flops_based/fuselage.py:702-704, with the nominal bay of 12 ft. -/
noncomputable def Cls.seat (c : Cls) (a p : ℝ) : ℝ := 12 * orDefault c.pitch p / 12 / orDefault c.abreast a

/-- Options of the detailed layout, aviary/subsystems/geometry/flops_based/fuselage.py:624-637. -/
structure Seats where
  first : Cls
  business : Cls
  economy : Cls

/-- Area of all seats, aviary/subsystems/geometry/flops_based/fuselage.py:724-728. -/
noncomputable def Seats.area (s : Seats) : ℝ :=
  s.economy.n * s.economy.seat 6 32 + s.business.n * s.business.seat 5 39 + s.first.n * s.first.seat 4 61

/-- `int(0.99 + n / d)` for a natural number, aviary/subsystems/geometry/flops_based/fuselage.py:711-715. -/
noncomputable def units (n d : ℝ) : ℤ := ⌊0.99 + n / d⌋

/-- Number of lavatories, aviary/subsystems/geometry/flops_based/fuselage.py:711-715. -/
noncomputable def Seats.lavs (s : Seats) : ℤ := units s.first.n 16 + units s.business.n 24 + units s.economy.n 40

/-- Area of lavatories, galleys and closets, aviary/subsystems/geometry/flops_based/fuselage.py:716-721 and 729. -/
noncomputable def Seats.service (s : Seats) : ℝ :=
  s.lavs * (12 / 2 * (36 / 12)) + ⌊0.99 + 0.6 * (s.lavs : ℝ)⌋ * (12 / 2 * (36 / 12)) +
    ⌊0.99 + 0.4 * (s.lavs : ℝ)⌋ * (12 / 2 * (12 / 12))

/-- Constants of the loop, aviary/subsystems/geometry/flops_based/fuselage.py:658-668 and 724-729: area of seats and
service, tangent of the sweep, shortest sidewall, largest number of bays and largest width of a bay. -/
structure Env where
  used : ℝ
  tan : ℝ
  side : ℝ
  maxBays : ℤ
  maxBay : ℝ

/-- What one round of the loop leaves, aviary/subsystems/geometry/flops_based/fuselage.py:738-775. -/
structure State where
  bays : ℝ
  area : ℝ
  width : ℝ
  cabin : ℝ
  side : ℝ
  bay : ℝ

/-- Estimate before the loop, aviary/subsystems/geometry/flops_based/fuselage.py:732-734. -/
noncomputable def Env.first (e : Env) : ℤ :=
  let n := ⌊0.5 + e.used / 550⌋
  if e.maxBays < n ∧ 0 < e.maxBays then e.maxBays else n

/-- Cabin area for a number of bays, aviary/subsystems/geometry/flops_based/fuselage.py:739-748. -/
noncomputable def Env.area (e : Env) (bays : ℝ) : ℝ := e.used + bays * e.tan * (12 / 2) ^ 2 + 10 * (bays - 1) * 12

/-- Width of a cabin of this area with the shortest sidewall,
aviary/subsystems/geometry/flops_based/fuselage.py:751-755. -/
noncomputable def Env.width (e : Env) (area : ℝ) : ℝ := 2 * (-e.side + √(e.side ^ 2 + e.tan * area)) / e.tan

/-- Number of bays for a width, aviary/subsystems/geometry/flops_based/fuselage.py:758-762. -/
noncomputable def Env.count (e : Env) (width : ℝ) : ℤ :=
  let t := 0.5 + width / 12
  if (e.maxBays : ℝ) < t ∧ 0 < e.maxBays then e.maxBays else ⌊t⌋

/-- The bay is wider than the largest width, aviary/subsystems/geometry/flops_based/fuselage.py:765-766: a positive width
over no bays is infinite. -/
def Env.tooWide (e : Env) (width : ℝ) (n : ℤ) : Prop :=
  0 < e.maxBay ∧ (n = 0 ∧ 0 < width ∨ n ≠ 0 ∧ e.maxBay < width / n)

open Classical in
/-- One round, aviary/subsystems/geometry/flops_based/fuselage.py:738-775. -/
noncomputable def Env.body (e : Env) (bays : ℝ) : State :=
  let area := e.area bays
  let width := e.width area
  let cabin := e.side + e.tan * width / 2
  let n := e.count width
  if e.tooWide width n then
    let t := 0.999 + width / e.maxBay
    if (e.maxBays : ℝ) < t ∧ 0 < e.maxBays then
      let width := e.maxBays * e.maxBay
      let cabin := area / width + e.tan * width / 4
      ⟨e.maxBays, area, width, cabin, cabin - e.tan * width / 2, e.maxBay⟩
    else ⟨smoothIntTanh t 40, area, width, cabin, e.side, e.maxBay⟩
  else ⟨n, area, width, cabin, e.side, width / n⟩

open Classical in
/-- The loop, aviary/subsystems/geometry/flops_based/fuselage.py:737-783, with the rounds left and whether it converged. -/
noncomputable def Env.loop (e : Env) : ℕ → ℝ → State × Bool
  | 0, bays => (e.body bays, decide (bays = (e.body bays).bays))
  | k + 1, bays => if bays = (e.body bays).bays then (e.body bays, true) else e.loop k (e.body bays).bays

/-- The whole iteration, at most 101 rounds, aviary/subsystems/geometry/flops_based/fuselage.py:732-783. Without sweep the
width is not a number and `int` raises. -/
noncomputable def Env.run (e : Env) : Except Err (State × Bool) :=
  if e.tan = 0 then .error .valueError else .ok (e.loop 100 e.first)

end Verif.BwbCabin
