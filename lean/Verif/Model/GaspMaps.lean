import Mathlib.Data.Rat.Floor

/-!
# Conversion of legacy engine decks and propeller maps

`aviary/utils/conversion_utils.py`, `aviary/utils/engine_deck_conversion.py` and
`aviary/utils/propeller_map_conversion.py`.  A file is a list of lines, a line a list of characters.
What `float` and `int` make of a text is left open (`Conv`); a `ValueError` is `none`.

Simplifications: counts in the file are natural numbers; the interpolation of OpenMDAO and the
atmosphere are left open; numbers are rationals.
-/

namespace Verif.GaspMaps

/-- What `float(s)` and `int(s)` return; `none` is a `ValueError`
(`aviary/utils/conversion_utils.py:25`). -/
structure Conv (ν : Type) where
  flt : List Char → Option ν
  int : List Char → Option ℕ

/-- The type of a field of a format (`aviary/utils/conversion_utils.py:22-25`). -/
inductive Ty
  | int | flt | skip
  deriving DecidableEq, Repr

/-- A value read from a field. Part of the model of aviary/utils/conversion_utils.py:24-25. -/
inductive Val (ν : Type)
  | int (n : ℕ)
  | flt (v : ν)
  deriving DecidableEq, Repr

/-- `typ(sub)`; a skipped field yields nothing (`aviary/utils/conversion_utils.py:24-25`). -/
def convert {ν : Type} (c : Conv ν) (t : Ty) (sub : List Char) : Option (List (Val ν)) :=
  match t with
  | .int => (c.int sub).map fun n => [.int n]
  | .flt => (c.flt sub).map fun v => [.flt v]
  | .skip => some []

/-- `_strparse` from position `p` on (`aviary/utils/conversion_utils.py:16-26`). -/
def strparse {ν : Type} (c : Conv ν) (s : List Char) (p : ℕ) : List (Ty × ℕ) →
    Option (List (Val ν))
  | [] => some []
  | (t, n) :: fmt => do
    let v ← convert c t ((s.drop p).take n)
    let r ← strparse c s (p + n) fmt
    pure (v ++ r)

/-- The numbers among the values, for `list(_parse(…))` of a format of floats
(`aviary/utils/conversion_utils.py:50`). -/
def floats {ν : Type} : List (Val ν) → List ν
  | [] => []
  | .flt v :: l => v :: floats l
  | .int _ :: l => floats l

/-- `f.readline()`: an empty text at the end of the file (`aviary/utils/conversion_utils.py:13`). -/
def readline : List (List Char) → List Char × List (List Char)
  | [] => ([], [])
  | l :: ls => (l, ls)

/-- A row of the tidy table: the value of the map, the line, the point and the field
(`aviary/utils/conversion_utils.py:39-40`). -/
structure Row (ν : Type) where
  a : ν
  y : ν
  x : ν
  z : ν
  deriving DecidableEq, Repr

/-- `n` times `(float, 10)` (`aviary/utils/conversion_utils.py:6-8`). -/
def rep (n : ℕ) : List (Ty × ℕ) := List.replicate n (.flt, 10)

/-- Reads `n` numbers from as many lines as they need, six to a line, each line beginning with the
fields of `pre` (`aviary/utils/conversion_utils.py:47-51`, `:63-70`). -/
def readWrapped {ν : Type} (c : Conv ν) (pre : List (Ty × ℕ)) (n : ℕ)
    (ls : List (List Char)) : Option (List ν × List (List Char)) :=
  if h : n = 0 then some ([], ls)
  else do
    let k := min 6 n
    let v ← strparse c (readline ls).1 0 (pre ++ rep k)
    let r ← readWrapped c pre (n - k) (readline ls).2
    pure (floats v ++ r.1, r.2)
termination_by n

/-- One line of a map: `y` and its `z` values (`aviary/utils/conversion_utils.py:56-70`). -/
def readRow {ν : Type} (c : Conv ν) (turbo : Bool) (npts : ℕ) (ls : List (List Char)) :
    Option ((ν × List ν) × List (List Char)) := do
  let k := min 6 npts
  let v ← strparse c (readline ls).1 0 ((.flt, 10) :: rep k)
  match floats v with
  | [] => none
  | y :: z => do
    let r ← readWrapped c (if turbo then [(.skip, 10)] else []) (npts - k) (readline ls).2
    pure ((y, z ++ r.1), r.2)

/-- The loop over the lines of a map (`aviary/utils/conversion_utils.py:55-74`). -/
def readRows {ν : Type} (c : Conv ν) (turbo : Bool) (npts : ℕ) :
    ℕ → List (List Char) → Option (List (ν × List ν) × List (List Char))
  | 0, ls => some ([], ls)
  | n + 1, ls => do
    let r ← readRow c turbo npts ls
    let q ← readRows c turbo npts n r.2
    pure (r.1 :: q.1, q.2)

/-- `map_data`: every point of every line (`aviary/utils/conversion_utils.py:38-39`, `:53`,
`:72-74`). -/
def assemble {ν : Type} (a : ν) (xs : List ν) (rows : List (ν × List ν)) : List (Row ν) :=
  rows.flatMap fun r => List.zipWith (fun x z => ⟨a, r.1, x, z⟩) xs r.2

/-- `_read_map` (`aviary/utils/conversion_utils.py:29-76`). -/
def readMap {ν : Type} (c : Conv ν) (turbo : Bool) (ls : List (List Char)) :
    Option (List (Row ν) × List (List Char)) := do
  let h ← strparse c (readline ls).1 0 [(.int, 5), (.int, 5), (.flt, 10)]
  match h with
  | [.int npts, .int nline, .flt amap] => do
    let x ← readWrapped c [(.skip, 10)] npts (readline ls).2
    let r ← readRows c turbo npts nline x.2
    pure (assemble amap x.1 r.1, r.2)
  | _ => none

/-- The loop of `_read_table` over the maps; a line is dropped after every map but the last
(`aviary/utils/engine_deck_conversion.py:494-504`). -/
def readMaps {ν : Type} (c : Conv ν) (turbo : Bool) :
    ℕ → List (List Char) → Option (List (Row ν) × List (List Char))
  | 0, ls => some ([], ls)
  | n + 1, ls => do
    let m ← readMap c turbo ls
    let rest := if n = 0 then m.2 else (readline m.2).2
    let r ← readMaps c turbo n rest
    pure (m.1 ++ r.1, r.2)

/-- `_read_table` (`aviary/utils/engine_deck_conversion.py:478-506`,
`aviary/utils/propeller_map_conversion.py:121-150`): title, number of maps, an empty line, maps.
Without maps the result is `None`, which no caller can use: an error here. -/
def readTable {ν : Type} (c : Conv ν) (turbo : Bool) (ls : List (List Char)) :
    Option (List (Row ν) × List (List Char)) := do
  let l1 := (readline ls).2
  let h ← strparse c (readline l1).1 0 [(.int, 5)]
  match h with
  | [.int n] => if n = 0 then none else readMaps c turbo n (readline (readline l1).2).2
  | _ => none

/-- The scalars of a turbofan deck (`aviary/utils/engine_deck_conversion.py:469-475`). -/
structure Scalars (ν : Type) where
  t4max : ν
  t4cruise : ν
  t4climb : ν
  slsAirflow : ν
  sfnIdle : ν
  deriving DecidableEq, Repr

/-- `_read_header` (`aviary/utils/engine_deck_conversion.py:459-475`). -/
def readHeader {ν : Type} (c : Conv ν) (ls : List (List Char)) :
    Option (Scalars ν × List (List Char)) := do
  let h ← strparse c (readline ls).1 0 ([(.int, 5), (.int, 5), (.skip, 10)] ++ rep 5)
  match h with
  | [.int iread, .int _, .flt wamap, .flt t4max, .flt t4mcl, .flt t4mc, .flt sfnidl] =>
    if iread ≠ 1 then none
    else some (⟨t4max, t4mc, t4mcl, wamap, sfnidl⟩, (readline ls).2)
  | _ => none

/-- `_read_gasp_engine` of a turbofan: thrust, fuel flow and air flow
(`aviary/utils/engine_deck_conversion.py:408-430`). -/
def readEngine {ν : Type} (c : Conv ν) (ls : List (List Char)) :
    Option (Scalars ν × List (Row ν) × List (Row ν) × List (Row ν)) := do
  let h ← readHeader c ls
  let t ← readTable c false h.2
  let f ← readTable c false t.2
  let a ← readTable c false f.2
  pure (h.1, t.1, f.1, a.1)

/-- `_read_gasp_propeller`: the type of Mach number and the table
(`aviary/utils/propeller_map_conversion.py:84-118`). -/
def readPropeller {ν : Type} (c : Conv ν) (ls : List (List Char)) :
    Option (ℕ × List (Row ν)) := do
  let h ← strparse c (readline ls).1 0 [(.int, 5), (.int, 5)]
  match h with
  | [.int iread, .int _] =>
    if iread = 1 ∨ iread = 2 then do
      let t ← readTable c true (readline ls).2
      pure (iread, t.1)
    else none
  | _ => none

/-! ## The structured grid -/

/-- `np.arange(a, b, s)` (`aviary/utils/engine_deck_conversion.py:524-525`). -/
def arange (a b s : ℚ) : List ℚ := (List.range ⌈(b - a) / s⌉₊).map fun i : ℕ => a + i * s

/-- Inserts into a sorted list without repetition. Part of the model of aviary/utils/engine_deck_conversion.py:534. -/
def insertU (x : ℚ) : List ℚ → List ℚ
  | [] => [x]
  | y :: l => if x < y then x :: y :: l else if x = y then y :: l else y :: insertU x l

/-- `np.unique` (`aviary/utils/engine_deck_conversion.py:534`, `:544-545`). -/
def unique (l : List ℚ) : List ℚ := l.foldr insertU []

/-- `min(…)` of a column (`aviary/utils/engine_deck_conversion.py:524`). -/
def minL (l : List ℚ) : ℚ := (unique l).headD 0

/-- `max(…)` of a column (`aviary/utils/engine_deck_conversion.py:524`). -/
def maxL (l : List ℚ) : ℚ := (unique l).getLastD 0

/-- The points of the grid, throttle first (`aviary/utils/engine_deck_conversion.py:522-529`). -/
def gridPts (step : ℚ) (fuel : List (Row ℚ)) : List (ℚ × ℚ) :=
  (arange (minL (fuel.map (·.y))) (maxL (fuel.map (·.y)) + step) step).flatMap fun t =>
    (arange (minL (fuel.map (·.x))) (maxL (fuel.map (·.x)) + 1 / 20) (1 / 20)).map fun m => (t, m)

/-- The methods of interpolation (`aviary/utils/engine_deck_conversion.py:553-556`). -/
inductive Method
  | lagrange3 | lagrange2 | slinear
  deriving DecidableEq, Repr

/-- The choice for a number of Mach numbers, given the method used before
(`aviary/utils/engine_deck_conversion.py:553-556`). -/
def nextMethod (before : Method) (machs : ℕ) : Method :=
  if machs = 3 ∧ before = .lagrange3 then .lagrange2
  else if machs = 2 then .slinear
  else before

/-- The points of one altitude (`aviary/utils/engine_deck_conversion.py:543`). -/
def atAlt (tab : List (Row ℚ)) (alt : ℚ) : List (Row ℚ) := tab.filter fun r => r.a = alt

/-- One row of the structured data: altitude, throttle, Mach number and value.
Part of the model of aviary/utils/engine_deck_conversion.py:542-565. -/
structure Cell where
  alt : ℚ
  t : ℚ
  m : ℚ
  val : ℚ
  deriving DecidableEq, Repr

/-- The loop over the altitudes of a field.  `interp` is the interpolation: a method, the table of
the altitude and a point (`aviary/utils/engine_deck_conversion.py:542-565`). -/
def fieldCells (interp : Method → List (Row ℚ) → ℚ × ℚ → ℚ) (pts : List (ℚ × ℚ))
    (tab : List (Row ℚ)) : List ℚ → Method → List Cell × Method
  | [], m => ([], m)
  | alt :: alts, m =>
    let d := atAlt tab alt
    let m' := nextMethod m (unique (d.map (·.x))).length
    let r := fieldCells interp pts tab alts m'
    (pts.map (fun p => ⟨alt, p.1, p.2, interp m' d p⟩) ++ r.1, r.2)

/-- `_make_structured_grid` for the three fields of a turbofan, in the order in which they are read
(`aviary/utils/engine_deck_conversion.py:509-574`). -/
def structured (interp : Method → List (Row ℚ) → ℚ × ℚ → ℚ) (step : ℚ)
    (thrust fuel : List (Row ℚ)) : List Cell × List Cell :=
  let pts := gridPts step fuel
  let t := fieldCells interp pts thrust (unique (thrust.map (·.a))) .lagrange3
  let f := fieldCells interp pts fuel (unique (fuel.map (·.a))) t.2
  (t.1, f.1)

/-- A data point of the written deck. Part of the model of aviary/utils/engine_deck_conversion.py:209-217. -/
structure Point where
  mach : ℚ
  alt : ℚ
  t4t2 : ℚ
  thrust : ℚ
  fuel : ℚ
  deriving DecidableEq, Repr

/-- The columns: conditions and fuel flow from the one field, thrust from the other
(`aviary/utils/engine_deck_conversion.py:209-217`). -/
def points (t f : List Cell) : List Point :=
  List.zipWith (fun t f => ⟨f.m, f.alt, f.t, t.val, f.val⟩) t f

/-- `throttle`: the temperature, or the ratio itself when `t4max` is a throttle, over its maximum
(`aviary/utils/engine_deck_conversion.py:242-305`, `normalize` of
`aviary/subsystems/propulsion/engine_deck.py:1747-1754`). -/
def throttle (t2 : Point → ℚ) (t4max : ℚ) (p : Point) : ℚ :=
  if t4max ≤ 100 then (p.t4t2 - 0) / (t4max - 0) else (t2 p * p.t4t2 - 0) / (t4max - 0)

/-- The points that are kept (`aviary/utils/engine_deck_conversion.py:307-320`). -/
def valid (t2 : Point → ℚ) (t4max : ℚ) (l : List Point) : List Point :=
  l.filter fun p => throttle t2 t4max p ≤ 1

/-! ## FLOPS decks -/

/-- White space of `str.strip`, as far as a text line contains it.
Part of the model of aviary/utils/engine_deck_conversion.py:395-405. -/
def isWs (ch : Char) : Bool := ch = ' ' || ch = '\t' || ch = '\n' || ch = '\r'

/-- `str.strip()`. Part of the model of aviary/utils/engine_deck_conversion.py:395-405. -/
def strip (s : List Char) : List Char := ((s.dropWhile isWs).reverse.dropWhile isWs).reverse

/-- `_flops_field_convert` (`aviary/utils/engine_deck_conversion.py:395-405`). -/
def flopsField (s : List Char) : List Char := if strip s = [] then ['0'] else strip s

/-- The line, filled to eighty characters
(`aviary/utils/engine_deck_conversion.py:372-375`). -/
def padLine (s : List Char) : List Char :=
  if s.length < 80 then s ++ List.replicate (80 - s.length) ' ' else s

/-- `line[a:b]`. Part of the model of aviary/utils/engine_deck_conversion.py:371-392. -/
def slice (s : List Char) (a b : ℕ) : List Char := (s.drop a).take (b - a)

/-- What `_read_flops_engine` yields for a line: a comment or the fields
(`aviary/utils/engine_deck_conversion.py:371-392`). -/
inductive Item
  | comment (s : List Char)
  | fields (l : List (List Char))
  deriving DecidableEq, Repr

/-- The columns of a FLOPS deck (`aviary/utils/engine_deck_conversion.py:380-390`). -/
def columns : List (ℕ × ℕ) :=
  [(0, 5), (5, 15), (15, 20), (20, 30), (30, 40), (40, 50), (60, 70), (70, 80)]

/-- `_read_flops_engine` for one line (`aviary/utils/engine_deck_conversion.py:371-392`). -/
def flopsLine (line : List Char) : Item :=
  let l := padLine line
  if l.head? = some '#' then .comment (strip l)
  else .fields (columns.map fun p => flopsField (slice l p.1 p.2))

/-- The loop of the converter: comments before the data are kept, everything after is data; a
comment there leaves its first character as Mach number, which is no number: `none`
(`aviary/utils/engine_deck_conversion.py:154-173`, `:338`). -/
def flopsData : List Item → Bool → Option (List (List Char) × List (List (List Char)))
  | [], _ => some ([], [])
  | .comment s :: r, false => (flopsData r false).map fun q => (s :: q.1, q.2)
  | .comment _ :: _, true => none
  | .fields l :: r, _ => (flopsData r true).map fun q => (q.1, l.take 7 :: q.2)

/-- Reading a FLOPS deck. Part of the model of aviary/utils/engine_deck_conversion.py:154-173. -/
def readFlops (ls : List (List Char)) : Option (List (List Char) × List (List (List Char))) :=
  flopsData (ls.map flopsLine) false

end Verif.GaspMaps
