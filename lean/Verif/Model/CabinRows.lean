import Verif.Model.CabinLayout
import Mathlib.Order.Lattice

/-!
# Rows of seats of a blended wing body (GASP)

Hand-written model of `BWBCabinLayout.compute`, aviary/subsystems/geometry/gasp_based/fuselage.py:483-703. Rational numbers
replace floats and the tangent of the sweep is an input. The loops run while seats are missing, so they take fuel here:
`none` means that the fuel was not enough. The messages of high verbosity are left out.
-/

namespace Verif.CabinRows
open Verif.CabinLayout (trunc)

/-- Shape of the cabin: tangent of the sweep and cabin width (ft),
aviary/subsystems/geometry/gasp_based/fuselage.py:511-515. -/
structure Shape where
  tan : ℚ
  width : ℚ

/-- A class: seat pitch and seat width (inch), width of its aisles (ft),
aviary/subsystems/geometry/gasp_based/fuselage.py:487-509. -/
structure Cls where
  pitch : ℚ
  seat : ℚ
  aisle : ℚ

/-- A row: station, width and seats, aviary/subsystems/geometry/gasp_based/fuselage.py:543-561. -/
structure Row where
  len : ℚ
  wid : ℚ
  num : ℤ

/-- The next row after a station, aviary/subsystems/geometry/gasp_based/fuselage.py:554-560, 609-615 and 665-671. Without
sweep the quotient is infinite for a positive station. -/
def mkRow (s : Shape) (c : Cls) (ptr : ℚ) : Row :=
  let len := ptr + c.pitch / 12
  let wid := if s.tan = 0 then s.width else min (2 * len / s.tan) s.width
  ⟨len, wid, trunc ((wid - c.aisle) / (c.seat / 12))⟩

/-- State of a loop: rows so far, last station, seats so far and the seats before the last row, unbound at first,
aviary/subsystems/geometry/gasp_based/fuselage.py:543-551. -/
structure St where
  rows : List Row
  ptr : ℚ
  sum : ℤ
  prev : Option ℤ

/-- One round, aviary/subsystems/geometry/gasp_based/fuselage.py:553-564, 608-619 and 664-675. -/
def St.step (s : Shape) (c : Cls) (x : St) : St :=
  let r := mkRow s c x.ptr
  ⟨x.rows ++ [r], r.len, x.sum + r.num, some x.sum⟩

/-- A loop, aviary/subsystems/geometry/gasp_based/fuselage.py:552-564, 607-619 and 663-675. -/
def fill (s : Shape) (c : Cls) (pax : ℤ) : ℕ → St → Option St
  | 0, x => if x.sum < pax then none else some x
  | k + 1, x => if x.sum < pax then fill s c pax k (x.step s c) else some x

/-- State before a loop, aviary/subsystems/geometry/gasp_based/fuselage.py:542-551. -/
def start (ptr : ℚ) : St := ⟨[], ptr, 0, none⟩

/-- Station where a class ends, aviary/subsystems/geometry/gasp_based/fuselage.py:566-572 and 621-627: a last row with one
passenger is dropped. Index -1 is the last row. -/
def St.last (x : St) (pax : ℤ) : ℚ :=
  let station := fun (i : ℕ) => ((x.rows[i]?).map Row.len).getD 0
  if pax - x.prev.getD 0 < 2 then
    station (if x.rows.length ≤ 1 then x.rows.length - 1 else x.rows.length - 2)
  else station (x.rows.length - 1)

/-- Options and inputs, aviary/subsystems/geometry/gasp_based/fuselage.py:484-533. -/
structure Opts where
  shape : Shape
  first : Cls
  business : Cls
  economy : Cls
  pax : ℤ
  paxF : ℤ
  paxB : ℤ
  nose : ℚ
  pilot : ℚ

/-- Economy passengers, aviary/subsystems/geometry/gasp_based/fuselage.py:530. -/
def Opts.paxT (o : Opts) : ℤ := o.pax - o.paxF - o.paxB

/-- Station of the first seats, aviary/subsystems/geometry/gasp_based/fuselage.py:534-540. -/
def Opts.fwd (o : Opts) : ℚ :=
  if 0 < o.paxF then o.nose + o.pilot + 8 else if 0 < o.paxB then o.nose + o.pilot + 8 else o.nose + o.pilot

/-- First class: station after it, aviary/subsystems/geometry/gasp_based/fuselage.py:542-590. -/
def Opts.runFirst (o : Opts) (fuel : ℕ) : Option ℚ :=
  if 0 < o.paxF then
    (fill o.shape o.first o.paxF fuel (start (o.fwd - o.first.pitch / 12))).map
      fun x => x.last o.paxF + o.first.pitch / 12
  else some o.fwd

/-- Business class from the station after first class: pointer before the economy rows,
aviary/subsystems/geometry/gasp_based/fuselage.py:592-655. -/
def Opts.runBusiness (o : Opts) (fuel : ℕ) (ptr : ℚ) : Option ℚ :=
  if 0 < o.paxB then
    (fill o.shape o.business o.paxB fuel (start (ptr + 5 - o.business.pitch / 12))).map
      fun x => x.last o.paxB + 5 - o.economy.pitch / 12
  else if 0 < o.paxF then some (ptr + 5 - o.economy.pitch / 12) else some (ptr - o.economy.pitch / 12)

/-- Economy rows and aft bulkhead, aviary/subsystems/geometry/gasp_based/fuselage.py:677-694. -/
def Opts.aft (o : Opts) (x : St) : Except Err ℚ :=
  match x.prev with
  | none => .error .unboundLocal
  | some prev =>
    let avail := o.shape.width - (o.paxT - prev) * o.economy.seat / 12 - o.economy.aisle
    let lavs := trunc (o.paxT / 78) + 1
    let galley := 144 * (o.paxT : ℚ) * 0.15 / 42
    if lavs * 42 / 12 + galley / 12 ≤ avail then .ok (x.ptr + 42 / 12) else .ok (x.ptr + o.economy.pitch / 12 + 42 / 12)

/-- aviary/subsystems/geometry/gasp_based/fuselage.py:483-703, for seats of first and business class of non-zero width. -/
def Opts.compute (o : Opts) (fuel : ℕ) : Option (Except Err ℚ) :=
  if o.economy.seat ≤ 0 then some (.error .valueError)
  else if o.pax < o.paxF + o.paxB then some (.error .valueError)
  else
    (o.runFirst fuel).bind fun p =>
    (o.runBusiness fuel p).bind fun q =>
    (fill o.shape o.economy o.paxT fuel (start q)).map o.aft

end Verif.CabinRows
