import Verif.Model.Dict
import Mathlib.Algebra.Order.Field.Rat
import Mathlib.Data.List.Dedup
import Mathlib.Data.List.Sort
import Mathlib.Algebra.BigOperators.Group.List.Basic

/-!
# Model of `build_data_interpolator` (aviary/utils/data_interpolator_builder.py:11-288)

The table is given as a `NamedValues` of equal-length 1-d columns, represented by its column names in
their stored order and its rows (the transpose taken at line 217). Training data connected through
OpenMDAO, n-d input columns, units and the length check (lines 205-214) are left out.
-/

namespace Verif

/-- Lexicographic comparison used by `np.lexsort(np.flip(independent_vals, 0))`.
Part of the model of aviary/utils/data_interpolator_builder.py:216-224. -/
def lexLe : List ℚ → List ℚ → Bool
  | [], _ => true
  | _ :: _, [] => false
  | a :: as, b :: bs => if a < b then true else if a = b then lexLe as bs else false

/-- Positions of the independent columns: keys not in `interpolator_outputs`,
aviary/utils/data_interpolator_builder.py:127-134. `interpolator_data.update(indep_vars)` (line 136) finds all keys
present already and therefore keeps the stored column order. -/
def indepIdx (names outs : List String) : List Nat :=
  (List.range names.length).filter fun i => !(outs.contains (names.getD i ""))

/-- `sorted_values[:, i]`. Part of the model of aviary/utils/data_interpolator_builder.py:142-181. -/
def col (i : Nat) (rows : List (List ℚ)) : List ℚ := rows.map fun r => r.getD i 0

/-- Rows sorted by the independent variables (stable), aviary/utils/data_interpolator_builder.py:216-224. -/
def sortRows (idx : List Nat) (rows : List (List ℚ)) : List (List ℚ) :=
  rows.insertionSort fun a b => lexLe (idx.map fun i => a.getD i 0) (idx.map fun i => b.getD i 0) = true

/-- `np.unique`. Part of the model of aviary/utils/data_interpolator_builder.py:142-181. -/
def npUnique (l : List ℚ) : List ℚ := (l.insertionSort fun a b => a ≤ b).dedup

/-- Training data of one variable: a vector, or an n-d array as shape and C-order contents.
Part of the model of aviary/utils/data_interpolator_builder.py:232-258. -/
structure Train where
  shape : List Nat
  flat : List ℚ
deriving DecidableEq, Repr

/-- `data_pre_structured`, aviary/utils/data_interpolator_builder.py:142-181, for 1-d columns: every input strictly
increasing, and the outputs' shape `(n,)` equal to the tuple of input lengths (one input). -/
def preStructured (idx : List Nat) (rows : List (List ℚ)) : Bool :=
  idx.all (fun i => npUnique (col i rows) == col i rows) && idx.length == 1

/-- Conversion to a structured grid, aviary/utils/data_interpolator_builder.py:232-258: the first `k` columns are
taken to be the independent ones. -/
def structuredData (k ncol : Nat) (sorted : List (List ℚ)) : Except Err (List Train) :=
  let shape := (List.range k).map fun i => (npUnique (col i sorted)).length
  if ncol ≤ k ∨ shape.prod = sorted.length then
    .ok ((List.range ncol).map fun i =>
      if i < k then ⟨[(npUnique (col i sorted)).length], npUnique (col i sorted)⟩
      else ⟨shape, col i sorted⟩)
  else .error .valueError

/-- Training data per column with `structured=True` and data given directly,
aviary/utils/data_interpolator_builder.py:100-288. -/
def buildStructured (names outs : List String) (rows : List (List ℚ)) : Except Err (List Train) :=
  let idx := indepIdx names outs
  if preStructured idx rows then
    .ok ((List.range names.length).map fun i => ⟨[rows.length], col i rows⟩)
  else structuredData idx.length names.length (sortRows idx rows)

/-- Training data per column for the semi-structured component, aviary/utils/data_interpolator_builder.py:200-229. -/
def buildSemi (names outs : List String) (rows : List (List ℚ)) : List (List ℚ) :=
  let idx := indepIdx names outs
  if preStructured idx rows then rows else sortRows idx rows

end Verif
