import Mathlib.Data.Rat.Defs
import Mathlib.Data.Nat.Notation
import Mathlib.Data.List.Infix
import Verif.Model.Dict

/-!
# Reports on a run

Hand-written model of the reports, aviary/interface/reports.py:190-713. Texts are lists of characters where they are taken apart. Writing of
files and the exit of all but one process are left out.
-/

namespace Verif.Reports

/-! ### Inputs not given -/

/-- `str.lstrip(chars)`, aviary/interface/reports.py:407: characters of the set are taken off, not the text as a prefix. -/
def lstrip (chars : List Char) (s : List Char) : List Char := s.dropWhile fun c => chars.contains c

/-- One turn of the loop over the models, aviary/interface/reports.py:399-407. -/
def bareStep (multi : Bool) (m : List Char × List (List Char)) (vs : List (List Char)) : List (List Char) :=
  let vs := vs.filter fun v => !m.2.contains v
  if multi then vs.filter fun v => !m.2.contains (lstrip (m.1 ++ ['.']) v) else vs

/-- `bare_inputs`, aviary/interface/reports.py:394-407; `ivc` are the unconnected inputs. -/
def bare (multi : Bool) (models : List (List Char × List (List Char))) (ivc : List (List Char)) : List (List Char) :=
  models.foldl (fun vs m => bareStep multi m vs) ivc

/-- Whether a variable is one of the hierarchy, aviary/interface/reports.py:409-416. -/
def hier (v : List Char) : Bool :=
  "mission:".toList.isPrefixOf v || "aircraft:".toList.isPrefixOf v || decide (".mission:".toList <:+: v) ||
    decide (".aircraft:".toList <:+: v)

/-- Rows of local variables: those inside a trajectory only if they belong to an ODE, aviary/interface/reports.py:417, 470-473. -/
def localRow (v : List Char) : Bool :=
  !hier v && !("traj".toList.isPrefixOf v && !decide (".rhs_all.".toList <:+: v))

/-- The two tables, aviary/interface/reports.py:409-417, 434, 470-473. -/
def tables (multi : Bool) (models : List (List Char × List (List Char))) (ivc : List (List Char)) :
    List (List Char) × List (List Char) :=
  ((bare multi models ivc).filter hier, (bare multi models ivc).filter localRow)

/-! ### Overrides -/

/-- An output: where its promoted name says it is overridden, its absolute name and the last part of it,
aviary/interface/reports.py:652-667. -/
structure Output where
  ext : Bool
  data : Bool
  abs : String
  var : String
  deriving DecidableEq, Repr

/-- The loop over the outputs, aviary/interface/reports.py:648-675: paths by variable, and values of the aircraft. -/
def overrides (inputs : Dict String ℚ) : List Output → Dict String String × List (String × ℚ) → Except Err (Dict String String × List (String × ℚ))
  | [], s => .ok s
  | o :: os, (e, d) =>
    if o.ext then overrides inputs os (if e.has o.var then e else e.set o.var o.abs, d)
    else if o.data then
      match inputs.get? o.var with
      | none => .error .keyError
      | some x => overrides inputs os (e, d ++ [(o.var, x)])
    else overrides inputs os (e, d)

/-! ### Time series -/

/-- One variable of a phase: its values row by row, the columns of a row, and units, aviary/interface/reports.py:517-530. -/
structure Series where
  rows : List (List ℚ)
  width : ℕ
  units : Option String
  deriving DecidableEq, Repr

/-- A phase with the number of its times, aviary/interface/reports.py:537-541. -/
structure TPhase where
  n : ℕ
  vars : Dict String Series

/-- Rows of a phase in the units of the column: empty ones where the variable is missing, aviary/interface/reports.py:540-580.
`conv` converts units. -/
def block (conv : Option String → String → ℚ → ℚ) (u : Option String) (p : TPhase) (v : String) : List (List (Option ℚ)) × ℕ :=
  match p.vars.get? v with
  | none => (List.replicate p.n [none], 1)
  | some s =>
    match u with
    | none => (s.rows.map (·.map some), s.width)
    | some u => (s.rows.map (·.map fun x => some (if s.units = some u then x else conv s.units u x)), s.width)

/-- Units after a phase: those of the first phase with the variable, aviary/interface/reports.py:559-562. -/
def nextUnits (u : Option String) (p : TPhase) (v : String) : Option String :=
  match u with
  | some u => some u
  | none => (p.vars.get? v).bind (·.units)

/-- The loop over the phases, aviary/interface/reports.py:534-583. `vstack` needs rows of one width; `w` is that of the rows so far. -/
def column (conv : Option String → String → ℚ → ℚ) (v : String) : Option ℕ → Option String → List TPhase → Except Err (List (List (Option ℚ)) × Option String)
  | _, u, [] => .ok ([], u)
  | w, u, p :: ps =>
    let b := block conv u p v
    if w = none ∨ w = some b.2 then do
      let r ← column conv v (some b.2) (nextUnits u p v) ps
      .ok (b.1 ++ r.1, r.2)
    else .error .valueError

/-- One cell per value, `flatten`, aviary/interface/reports.py:585-590. -/
def flat (rows : List (List (Option ℚ))) : List (Option ℚ) := rows.flatten

/-- The columns in their order, aviary/interface/reports.py:592-596. -/
def order (names : List String) : List String := "time" :: (names.filter (· ≠ "time")).mergeSort (· ≤ ·)

/-- `df.drop_duplicates()`, whose result is not kept, aviary/interface/reports.py:601. -/
def dropDuplicates {α : Type} (rows : List α) : List α := rows

/-! ### Mission summary -/

/-- First and last value of mass, time and distance of a phase, as far as they are found, aviary/interface/reports.py:200-225. -/
structure Phase where
  mass : Option (ℚ × ℚ)
  time : Option (ℚ × ℚ)
  dist : Option (ℚ × ℚ)

/-- A row of a phase, aviary/interface/reports.py:255-271. -/
structure Row where
  fuel : Option ℚ
  time : Option ℚ
  dist : Option ℚ
  deriving DecidableEq, Repr

/-- `_get_phase_diff`; for the fuel the indices are the other way round, aviary/interface/reports.py:227-236, 257-259. -/
def diff (p : Phase) : Row :=
  ⟨p.mass.map fun v => v.1 - v.2, p.time.map fun v => v.2 - v.1, p.dist.map fun v => v.2 - v.1⟩

/-- Total time and distance, aviary/interface/reports.py:302-303. -/
structure Totals where
  time : ℚ
  dist : ℚ
  deriving DecidableEq, Repr

/-- The turns of the loop over the phases: `init` is set at the first phase, and the totals are those of the last one,
aviary/interface/reports.py:252-303. A missing value cannot be subscripted or subtracted. -/
def phases : Option (ℚ × ℚ) → Option Totals → List Phase → Except Err (List Row × Option Totals)
  | _, t, [] => .ok ([], t)
  | ini, _, p :: ps =>
    match p.time, p.dist with
    | some tm, some ds => do
      let i := ini.getD (tm.1, ds.1)
      let r ← phases (some i) (some ⟨tm.2 - i.1, ds.2 - i.2⟩) ps
      .ok (diff p :: r.1, r.2)
    | _, _ => .error .typeError

/-- The loop over the models, aviary/interface/reports.py:247-306. `totals` is a variable of the function and is kept from one model to the
next. -/
def summary : Option Totals → List (List Phase) → Except Err (List (List Row × Totals))
  | _, [] => .ok []
  | t, m :: ms => do
    let r ← phases none t m
    match r.2 with
    | none => .error .unboundLocal
    | some tot => do
      let rest ← summary (some tot) ms
      .ok ((r.1, tot) :: rest)

end Verif.Reports
