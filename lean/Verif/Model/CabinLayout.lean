import Verif.Model.Dict
import Mathlib.Data.Rat.Floor
import Mathlib.Algebra.Order.Floor.Ring

/-!
# Detailed cabin layout of a transport (FLOPS)

Hand-written model of `DetailedCabinLayout.compute`, aviary/subsystems/geometry/flops_based/fuselage.py:198-458.
Rational numbers replace floats. The messages printed at high verbosity and the numbers of rows, which nothing reads, are
left out. Passengers and seats abreast are Python integers, so that a division by zero raises.
-/

namespace Verif.CabinLayout

/-- Options and inputs of `DetailedCabinLayout`, aviary/subsystems/geometry/flops_based/fuselage.py:172-191: passengers,
seats abreast, seat pitches (inch) and seat widths (inch) of first, business and economy class, numbers of engines of
each type and design range. -/
structure Opts where
  nF : ℤ
  nB : ℤ
  nE : ℤ
  aF : ℤ
  aB : ℤ
  aE : ℤ
  pF : ℚ
  pB : ℚ
  pE : ℚ
  engines : List ℤ
  range : ℚ
  wF : ℚ
  wB : ℚ
  wE : ℚ

/-- `int(x)` of Python, used at aviary/subsystems/geometry/flops_based/fuselage.py:392-420. -/
def trunc (x : ℚ) : ℤ := if 0 ≤ x then ⌊x⌋ else ⌈x⌉

/-- Seats abreast of first, business and economy class, aviary/subsystems/geometry/flops_based/fuselage.py:206-212. -/
structure Abreast where
  f : ℤ
  b : ℤ
  e : ℤ

/-- More than 200 economy passengers, aviary/subsystems/geometry/flops_based/fuselage.py:215-236. -/
def Opts.wide (o : Opts) : Abreast :=
  if 200 < o.nE then
    let e := if o.aE ≤ 0 then 8 else o.aE
    ⟨if 0 < o.nF ∧ o.aF ≤ 0 then e - 2 else o.aF, if 0 < o.nB ∧ o.aB ≤ 0 then e - 2 else o.aB, e⟩
  else ⟨o.aF, o.aB, o.aE⟩

/-- Defaults of the seats abreast, aviary/subsystems/geometry/flops_based/fuselage.py:238-258. -/
def Opts.common (o : Opts) : Abreast :=
  let w := o.wide
  ⟨if w.f ≤ 0 ∧ 0 < o.nF then 4 else w.f, if w.b ≤ 0 ∧ 0 < o.nB then 5 else w.b,
    if w.e ≤ 0 ∧ 0 < o.nE then 6 else w.e⟩

/-- Seats abreast after the case of less than 60 economy passengers,
aviary/subsystems/geometry/flops_based/fuselage.py:268-276. -/
def Opts.abreast (o : Opts) : Abreast :=
  let c := o.common
  ⟨c.f, c.b, if o.nE < 60 then if c.e ≤ 0 then 5 else c.e else c.e⟩

/-- Number of aisles, aviary/subsystems/geometry/flops_based/fuselage.py:278-281. -/
def Opts.aisles (o : Opts) : ℤ := if 6 < o.abreast.e then 2 else 1

/-- Aisle width of first class, aviary/subsystems/geometry/flops_based/fuselage.py:261-289. -/
def Opts.aisleF (o : Opts) : ℚ :=
  let w := if 4 < o.abreast.f then 18 else 20
  if 5 < o.abreast.b then 17 else w

/-- Aisle width of business class, aviary/subsystems/geometry/flops_based/fuselage.py:262: never changed. -/
def Opts.aisleB (_ : Opts) : ℚ := 19

/-- Aisle width of economy class, aviary/subsystems/geometry/flops_based/fuselage.py:263-291. -/
def Opts.aisleE (o : Opts) : ℚ :=
  let w := if o.nE < 60 then 15 else 18
  if 6 < o.abreast.e then 15 else w

/-- Seat pitch of a class, aviary/subsystems/geometry/flops_based/fuselage.py:293-307. -/
def pitch (p : ℚ) (n : ℤ) (default : ℚ) : ℚ := if p ≤ 0 ∧ 0 < n then default else p

/-- Largest numbers of galleys, lavatories and closets, aviary/subsystems/geometry/flops_based/fuselage.py:309-354. -/
structure Caps where
  galleys : ℤ
  lavs : ℤ
  closets : ℤ
  deriving DecidableEq

/-- Limits by the number of passengers, aviary/subsystems/geometry/flops_based/fuselage.py:310-354. -/
def capsTable (n : ℤ) : Caps :=
  if n < 80 then ⟨1, 1, 1⟩
  else if n < 150 then ⟨2, 2, 2⟩
  else if n < 250 then ⟨3, 4, 3⟩
  else if n < 320 then ⟨4, 6, 4⟩
  else if n < 350 then ⟨5, 8, 5⟩
  else if n < 410 then ⟨6, 12, 6⟩
  else if n < 450 then ⟨7, 13, 7⟩
  else if n < 500 then ⟨8, 14, 8⟩
  else if n < 550 then ⟨9, 15, 9⟩
  else if n < 600 then ⟨10, 16, 10⟩
  else ⟨10, 16, 10⟩

/-- Passengers in all, aviary/subsystems/geometry/flops_based/fuselage.py:310. -/
def Opts.pax (o : Opts) : ℤ := o.nF + o.nB + o.nE

/-- Passengers of first and business class, aviary/subsystems/geometry/flops_based/fuselage.py:358. -/
def Opts.fb (o : Opts) : ℤ := o.nF + o.nB

/-- Limits after the cases of FLOPS, aviary/subsystems/geometry/flops_based/fuselage.py:363-386. -/
def Opts.caps (o : Opts) : Caps :=
  let c := capsTable o.pax
  let c := if o.fb = 0 then { c with lavs := if o.range < 1250 then 2 else 3, galleys := 2, closets := 2 } else c
  let c := if o.fb = 0 ∧ o.nE < 110 then ⟨1, 1, 1⟩ else c
  if 320 < o.nE then ⟨4, 4, 4⟩ else if 600 < o.nE then ⟨8, 8, 8⟩ else c

/-- `fuselage_multiplier`, aviary/subsystems/geometry/flops_based/fuselage.py:204, 363-371 and 388-389. -/
def Opts.mult (o : Opts) : ℚ :=
  let m := if o.fb = 0 ∧ o.nE < 180 then 0.91 else 1
  if 0 < o.fb ∧ o.abreast.e < 8 then 0.95 else m

/-- Number of galleys, aviary/subsystems/geometry/flops_based/fuselage.py:392-394. -/
def Opts.galleys (o : Opts) : ℤ :=
  let n := trunc (1 + o.pax / 100)
  if o.caps.galleys < n then o.caps.galleys else n

/-- Number of lavatories, aviary/subsystems/geometry/flops_based/fuselage.py:395-397. -/
def Opts.lavs (o : Opts) : ℤ :=
  let n := trunc (1 + o.nE / 60) + trunc (1 + o.fb / 100)
  if o.caps.lavs < n then o.caps.lavs else n

/-- Number of closets, aviary/subsystems/geometry/flops_based/fuselage.py:398-400. -/
def Opts.closets (o : Opts) : ℤ :=
  let n := trunc (1 + o.fb / 30) + trunc (1 + o.nE / 60)
  if o.caps.closets < n then o.caps.closets else n

/-- `eng_flag`, aviary/subsystems/geometry/flops_based/fuselage.py:405. -/
def engFlag (n : ℤ) : ℤ := n - 2 * trunc (n / 2)

/-- Length of a class, aviary/subsystems/geometry/flops_based/fuselage.py:406-410: a division of Python numbers. -/
def classLen (n : ℤ) (p : ℚ) (a : ℤ) : Except Err ℚ := if a = 0 then .error .zeroDivision else .ok (n * p / a)

/-- Length of seats and service areas in feet, aviary/subsystems/geometry/flops_based/fuselage.py:411-417. -/
def Opts.bare (o : Opts) (f b e : ℚ) : ℚ := (f + b + (o.galleys + o.lavs) * 36 + e + o.closets * 12) / 12

/-- Number of doors, aviary/subsystems/geometry/flops_based/fuselage.py:420. -/
def doors (len : ℚ) (abreast : ℤ) : ℤ := 1 + trunc (len / 50 * abreast / 6)

/-- Final length of the compartment, aviary/subsystems/geometry/flops_based/fuselage.py:423. -/
def Opts.final (o : Opts) (len : ℚ) : ℚ := (len + doors len o.abreast.e * 2.96) * o.mult

/-- Width of a class in feet, aviary/subsystems/geometry/flops_based/fuselage.py:441-455. -/
def Opts.width (o : Opts) (aisle : ℚ) (a : ℤ) (seat : ℚ) : ℚ := (o.aisles * aisle + a * seat) / 12

/-- Width of the fuselage, aviary/subsystems/geometry/flops_based/fuselage.py:440-456. -/
def Opts.fusWidth (o : Opts) : ℚ :=
  let f := if 0 < o.nF then o.width o.aisleF o.abreast.f o.wF else 0
  let b := if 0 < o.nB then o.width o.aisleB o.abreast.b o.wB else 0
  max (max f (o.width o.aisleE o.abreast.e o.wE)) b * 1.06

/-- Outputs of `DetailedCabinLayout`, aviary/subsystems/geometry/flops_based/fuselage.py:191-194. -/
structure Out where
  cabin : ℚ
  length : ℚ
  width : ℚ
  height : ℚ

/-- aviary/subsystems/geometry/flops_based/fuselage.py:198-458. -/
def Opts.compute (o : Opts) : Except Err Out :=
  match o.engines with
  | [] => .error .indexError
  | n :: _ => do
    let f ← classLen o.nF (pitch o.pF o.nF 38) o.abreast.f
    let b ← classLen o.nB (pitch o.pB o.nB 36) o.abreast.b
    let e ← classLen o.nE (pitch o.pE o.nE 34) o.abreast.e
    let cabin := o.final (o.bare f b e)
    .ok ⟨cabin, cabin + 25 * engFlag n + 40, o.fusWidth, o.fusWidth + 0.9⟩

end Verif.CabinLayout
