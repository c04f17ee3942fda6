import Verif.Model.GaspMaps

/-!
# Conversion of legacy aerodynamics tables

`aviary/utils/aero_table_conversion.py`.  A file is a list of lines, a line a list of characters;
`Conv`, `readMaps`, `readTable`, `arange`, `unique` and `fieldCells` are those of the engine deck
conversion, whose code is repeated there.

Simplifications: a raised exception is `none`; the interpolations of scipy and OpenMDAO are left
open; units are texts that are not checked.
-/

namespace Verif.AeroTables

open Verif.GaspMaps (Conv Row Method Cell Ty isWs strip strparse readline readTable rep arange
  minL maxL unique atAlt fieldCells)

/-- `re.split(r'[\s]*\s', line)`: a run of white space separates
(`aviary/utils/aero_table_conversion.py:183`, `:298`, `:315`). -/
def words : List Char → List (List Char)
  | [] => [[]]
  | ch :: s =>
    if isWs ch then
      match s with
      | [] => [[], []]
      | d :: _ => if isWs d then words s else [] :: words s
    else
      match words s with
      | [] => [[ch]]
      | w :: ws => (ch :: w) :: ws

/-! ## FLOPS tables -/

/-- What a line of a FLOPS table is (`aviary/utils/aero_table_conversion.py:182-202`). -/
inductive Line (ν : Type)
  | comment (s : List Char)
  | nums (v : List ν)
  | bad
  deriving DecidableEq, Repr

/-- The line as `_read_line` sees it (`aviary/utils/aero_table_conversion.py:182-202`). -/
def classify {ν : Type} (c : Conv ν) (line : List Char) : Line ν :=
  let s := strip line
  let items := words s
  if items.head? = some ['#'] then .comment s
  else
    match items.mapM c.flt with
    | some v => .nums v
    | none => .bad

/-- `_read_line` at the beginning of the given lines: the numbers and the comments passed over.  At
the end of the file it raises or returns `None`, which no caller can use
(`aviary/utils/aero_table_conversion.py:181-204`). -/
def scan {ν : Type} : List (Line ν) → Option (List ν × List (List Char))
  | [] => none
  | .comment s :: r => (scan r).map fun q => (q.1, s :: q.2)
  | .nums v :: _ => some (v, [])
  | .bad :: _ => none

/-- A call `_read_line(base + offset, comments)` with the new offset
(`aviary/utils/aero_table_conversion.py:187`, `:219`). -/
def readAt {ν : Type} (f : List (Line ν)) (base offset : ℕ) :
    Option (List ν × List (List Char) × ℕ) :=
  (scan (f.drop (base + offset))).map fun q => (q.1, q.2, offset + q.2.length)

/-- The loop over the rows of a table from row `i` on
(`aviary/utils/aero_table_conversion.py:223-233`, `:245-255`). -/
def readRowsAt {ν : Type} (f : List (Line ν)) (base width : ℕ) :
    ℕ → ℕ → ℕ → Option (List (List ν) × List (List Char) × ℕ)
  | 0, _, offset => some ([], [], offset)
  | n + 1, i, offset => do
    let r ← readAt f (base + i) offset
    if r.1.length = width then do
      let q ← readRowsAt f base width n (i + 1) r.2.2
      pure (r.1 :: q.1, r.2.1 ++ q.2.1, q.2.2)
    else none

/-- One of the two tables of the file: rows by `outer`, columns by `inner`.
Part of the model of aviary/utils/aero_table_conversion.py:218-239. -/
structure Table (ν : Type) where
  outer : List ν
  inner : List ν
  rows : List (List ν)
  comments : List (List Char)
  deriving DecidableEq, Repr

/-- Reads counts, two lists and the rows of a table
(`aviary/utils/aero_table_conversion.py:218-239`, `:241-261`).  The counts are two numbers that are
not used. -/
def readPart {ν : Type} (f : List (Line ν)) (base offset : ℕ) : Option (Table ν × ℕ) := do
  let c ← readAt f base offset
  if c.1.length = 2 then do
    let m ← readAt f (base + 1) c.2.2
    let l ← readAt f (base + 2) m.2.2
    let r ← readRowsAt f (base + 3) l.1.length m.1.length 0 l.2.2
    pure (⟨m.1, l.1, r.1, c.2.1 ++ m.2.1 ++ l.2.1 ++ r.2.1⟩, r.2.2)
  else none

/-- `_load_flops_aero_table`: lift dependent drag, then zero lift drag.  Between them the offset is
increased by the last index of the rows (`aviary/utils/aero_table_conversion.py:178-277`). -/
def loadFlops {ν : Type} (c : Conv ν) (lines : List (List Char)) :
    Option (Table ν × Table ν) := do
  let f := lines.map (classify c)
  let a ← readPart f 0 0
  let b ← readPart f 4 (a.2 + (a.1.outer.length - 1))
  pure (a.1, b.1)

/-- The flattened columns: `np.meshgrid(inner, outer)` and the array of rows
(`aviary/utils/aero_table_conversion.py:263-275`). -/
def columnsOf {ν : Type} (t : Table ν) : List ν × List ν × List ν :=
  (t.outer.flatMap fun m => t.inner.map fun _ => m, t.outer.flatMap fun _ => t.inner,
    t.rows.flatten)

/-! ## Tables of columns -/

/-- `allowed_headers` (`aviary/utils/aero_table_conversion.py:29-41`). -/
def allowed : List (List Char × String) :=
  [("altitude".toList, "Altitude"), ("alt".toList, "Altitude"),
   ("alpha".toList, "Angle of Attack"), ("mach".toList, "Mach"),
   ("delflp".toList, "Flap Deflection"), ("cltot".toList, "CL"), ("cl".toList, "CL"),
   ("cd".toList, "CD"), ("hob".toList, "Hob"), ("del_cl".toList, "Delta CL"),
   ("del_cd".toList, "Delta CD")]

/-- The name of a column. Part of the model of aviary/utils/aero_table_conversion.py:294-313. -/
def header (w : List Char) : Option String := allowed.lookup (w.map Char.toLower)

/-- `line.strip('# ').strip()` (`aviary/utils/aero_table_conversion.py:295`). -/
def bare (line : List Char) : List Char :=
  let p : Char → Bool := fun ch => ch = '#' || ch = ' '
  strip ((line.dropWhile p).reverse.dropWhile p).reverse

/-- `item.strip('()')`, and `unitless` for a dash
(`aviary/utils/aero_table_conversion.py:309-311`). -/
def unitOf (w : List Char) : List Char :=
  let p : Char → Bool := fun ch => ch = '(' || ch = ')'
  let u := ((w.dropWhile p).reverse.dropWhile p).reverse
  if u = ['-'] then "unitless".toList else u

/-- What the loop over the lines has gathered; the header has been seen when there are variables
(`aviary/utils/aero_table_conversion.py:282-288`). -/
structure Gathered (ν : Type) where
  comments : List (List Char)
  vars : Option (List (List Char))
  units : List (List Char)
  raw : List (List ν)
  deriving DecidableEq, Repr

/-- A comment line (`aviary/utils/aero_table_conversion.py:294-313`). -/
def commentStep {ν : Type} (st : Gathered ν) (line : List Char) : Gathered ν :=
  let l := bare line
  match st.vars with
  | none =>
    if (words l).all fun w => (header w).isSome then { st with vars := some (words l) }
    else if l = [] then st
    else { st with comments := st.comments ++ [l] }
  | some _ => { st with units := st.units ++ (words l).map unitOf }

/-- A line of the file (`aviary/utils/aero_table_conversion.py:290-328`). -/
def lineStep {ν : Type} (c : Conv ν) (st : Gathered ν) (line : List Char) :
    Option (Gathered ν) :=
  match line with
  | [] => some st
  | ch :: _ =>
    if ch = '#' then some (commentStep st line)
    else ((words (strip line)).mapM c.flt).map fun v => { st with raw := st.raw ++ [v] }

/-- The loop over the lines. Part of the model of aviary/utils/aero_table_conversion.py:280-336. -/
def gather {ν : Type} (c : Conv ν) : List (List Char) → Gathered ν → Option (Gathered ν)
  | [], st => some st
  | l :: ls, st => (lineStep c st l).bind (gather c ls)

/-- A column of the result. Part of the model of aviary/utils/aero_table_conversion.py:334. -/
structure Col (ν : Type) where
  name : String
  vals : List ν
  unit : List Char
  deriving DecidableEq, Repr

/-- `NamedValues.set_val`: a name that is there is replaced where it stands
(`aviary/utils/aero_table_conversion.py:334`). -/
def setCol {ν : Type} (col : Col ν) : List (Col ν) → List (Col ν)
  | [] => [col]
  | d :: l => if d.name = col.name then col :: l else d :: setCol col l

/-- The loop over the variables: `raw_data[:, idx]` and `units[idx]`
(`aviary/utils/aero_table_conversion.py:332-334`). -/
def setCols {ν : Type} (raw : List (List ν)) (units : List (List Char)) :
    List (List Char) → ℕ → List (Col ν) → Option (List (Col ν))
  | [], _, acc => some acc
  | w :: ws, i, acc => do
    let n ← header w
    let v ← raw.mapM fun r => r[i]?
    let u ← units[i]?
    setCols raw units ws (i + 1) (setCol ⟨n, v, u⟩ acc)

/-- `_load_gasp_aero_table`; a ragged or empty array cannot be indexed by column
(`aviary/utils/aero_table_conversion.py:280-336`). -/
def loadColumns {ν : Type} (c : Conv ν) (lines : List (List Char)) :
    Option (List (Col ν) × List (List Char)) := do
  let g ← gather c lines ⟨[], none, [], []⟩
  let ws := g.vars.getD []
  if g.raw.all (fun r => r.length = (g.raw.headD []).length) && (g.raw ≠ [] || ws = []) then do
    let cols ← setCols g.raw g.units ws 0 []
    pure (cols, g.comments)
  else none

/-! ## Tables of maps -/

/-- `_read_header`: reference area and chord; some options are refused
(`aviary/utils/aero_table_conversion.py:371-385`). -/
def readAeroHeader {ν : Type} (c : Conv ν) (ls : List (List Char)) :
    Option ((ν × ν) × List (List Char)) := do
  let h ← strparse c (readline ls).1 0
    ([(.int, 5), (.int, 5), (.int, 5), (.int, 5)] ++ rep 2)
  match h with
  | [.int iread, .int _, .int icd0, .int _, .flt sref, .flt cbar] =>
    if iread = 1 then none else if icd0 = 1 then none else some ((sref, cbar), (readline ls).2)
  | _ => none

/-- `_load_gasp_alt_aero_table` up to the two tables
(`aviary/utils/aero_table_conversion.py:339-343`). -/
def readAero {ν : Type} (c : Conv ν) (ls : List (List Char)) :
    Option ((ν × ν) × List (Row ν) × List (Row ν)) := do
  let h ← readAeroHeader c ls
  let l ← readTable c false h.2
  let d ← readTable c false l.2
  pure (h.1, l.1, d.1)

/-- Drag as a function of the angle of attack: for each row of the lift table the drag table at its
altitude and Mach number, at its lift.  `interp` is `interp1d` with nodes and argument; it raises
without nodes (`aviary/utils/aero_table_conversion.py:345-366`). -/
def onAlpha (interp : List (ℚ × ℚ) → ℚ → ℚ) (cl cd : List (Row ℚ)) : Option (List (Row ℚ)) :=
  cl.mapM fun r =>
    let sel := cd.filter fun q => q.a = r.a ∧ q.x = r.x
    if sel = [] then none else some { r with z := interp (sel.map fun q => (q.y, q.z)) r.z }

/-- The points of the grid, angle of attack first; the step is added to the largest value twice
(`aviary/utils/aero_table_conversion.py:420-439`). -/
def aeroPts (cl : List (Row ℚ)) : List (ℚ × ℚ) :=
  let s : ℚ := 1 / 20
  (arange (minL (cl.map (·.y))) ((maxL (cl.map (·.y)) + s) + s) s).flatMap fun t =>
    (arange (minL (cl.map (·.x))) ((maxL (cl.map (·.x)) + s) + s) s).map fun m => (t, m)

/-- `_make_structured_grid` of both tables (`aviary/utils/aero_table_conversion.py:418-482`). -/
def aeroGrid (interp : Method → List (Row ℚ) → ℚ × ℚ → ℚ) (cl cd : List (Row ℚ)) :
    List Cell × List Cell :=
  let pts := aeroPts cl
  let l := fieldCells interp pts cl (unique (cl.map (·.a))) .lagrange3
  let d := fieldCells interp pts cd (unique (cd.map (·.a))) l.2
  (l.1, d.1)

/-- A row of the written table. Part of the model of aviary/utils/aero_table_conversion.py:101-111. -/
structure AeroRow where
  alt : ℚ
  mach : ℚ
  alpha : ℚ
  cl : ℚ
  cd : ℚ
  deriving DecidableEq, Repr

/-- The columns: conditions and lift from the one field, drag from the other, rounded
(`aviary/utils/aero_table_conversion.py:101-111`). -/
def aeroRows (round : ℚ → ℕ → ℚ) (l d : List Cell) : List AeroRow :=
  List.zipWith (fun l d => ⟨round l.alt 7, round l.m 4, round l.t 4, round l.val 4,
    round d.val 4⟩) l d

/-- Order of the rows: altitude, then Mach number, then angle of attack
(`aviary/utils/aero_table_conversion.py:126-134`). -/
def rowLe (a b : AeroRow) : Bool :=
  a.alt < b.alt || (a.alt = b.alt && (a.mach < b.mach || (a.mach = b.mach && a.alpha ≤ b.alpha)))

/-- Sorting with `np.lexsort` (`aviary/utils/aero_table_conversion.py:125-136`). -/
def sortRows (l : List AeroRow) : List AeroRow := l.mergeSort rowLe

/-! ## Writing -/

/-- The formats of an aerodynamics table (`aviary/utils/aero_table_conversion.py:63`). -/
inductive Format
  | flops | gasp | gaspAlt
  deriving DecidableEq, Repr

/-- What is given as output file. Part of the model of aviary/utils/aero_table_conversion.py:65-84. -/
inductive Target
  | missing
  | one (stem : String)
  | two (a b : String)
  deriving DecidableEq, Repr

/-- The stems of the files that are written.  For FLOPS without a target `path / name + '…'` adds a
text to a path, a `TypeError`.  A list for the other formats has no use there either
(`aviary/utils/aero_table_conversion.py:65-84`, `:154-160`). -/
def outputs (fmt : Format) (stem : String) : Target → Option (List String)
  | .missing => if fmt = .flops then none else some [stem ++ "_aviary"]
  | .one s => if fmt = .flops then some [s ++ "_CDi", s ++ "_CD0"] else some [s]
  | .two a b => if fmt = .flops then some [a, b] else none

/-- The columns that are written as results of the other formats
(`aviary/utils/aero_table_conversion.py:44`). -/
def dependents : List String := ["CL", "CL", "CD", "Hob", "Delta CL", "Delta CD"]

/-- Arguments `outputs` and `comments` of `write_data_file`: for FLOPS the comments are passed third,
where the names of the dependent columns belong, and nothing as comments
(`aviary/utils/aero_table_conversion.py:92`, `:152`, `:169`, `:173-175`,
`aviary/utils/csv_data_file.py:219-225`). -/
def writeArgs (fmt : Format) (comments : List String) : List String × List String :=
  if fmt = .flops then (comments, []) else (dependents, comments)

/-- The label of a column (`aviary/utils/csv_data_file.py:290-297`). -/
def label (args : List String × List String) (var : String) : String :=
  if var ∈ args.1 then "output" else "input"

end Verif.AeroTables
