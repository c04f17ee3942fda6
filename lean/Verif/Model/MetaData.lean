import Verif.Model.Dict
import Mathlib.Data.Rat.Defs
import Mathlib.Algebra.Order.Ring.Rat
import Mathlib.Algebra.Order.Group.Abs

/-!
# Metadata dictionaries

Models /repo/aviary/utils/merge_variable_metadata.py:4-112 and /repo/aviary/utils/develop_metadata.py:1-224.
-/

namespace Verif

/-- Metadata field values as far as `almost_equal` distinguishes them: floats, integers, anything else
compared with `==` (represented by its `repr`), nested dicts.  ndarrays are left out.
Part of the model of aviary/utils/merge_variable_metadata.py:15. -/
inductive MVal
  | num (q : Rat)
  | int (i : Int)
  | other (s : String)
  | dict (d : List (String × MVal))

/-- `np.isclose(a, b, rtol=1e-8, atol=0.0)` for finite numbers: `|a - b| <= atol + rtol * |b|`
(aviary/utils/merge_variable_metadata.py:9). -/
def isClose (a b : Rat) : Bool := decide (|a - b| ≤ (1 / 100000000) * |b|)

/-- `a.keys() == b.keys()` (set comparison, aviary/utils/merge_variable_metadata.py:15). -/
def sameKeys (a b : List (String × MVal)) : Bool :=
  (a.map Prod.fst).all (fun k => decide (k ∈ b.map Prod.fst)) &&
  (b.map Prod.fst).all (fun k => decide (k ∈ a.map Prod.fst))

mutual
/-- aviary/utils/merge_variable_metadata.py:4-22 `almost_equal` with the default tolerances (the only ones the recursive
call at line 18 ever uses). -/
def almostEq : MVal → MVal → Bool
  | .num a, .num b => isClose a b
  | .num a, .int b => decide (a = b)
  | .int a, .num b => decide ((a : Rat) = b)
  | .int a, .int b => decide (a = b)
  | .other s, .other t => decide (s = t)
  | .dict xs, .dict ys => sameKeys xs ys && almostEqAll xs ys
  | _, _ => false
/-- The loop at lines 17-19. -/
def almostEqAll : List (String × MVal) → List (String × MVal) → Bool
  | [], _ => true
  | (k, v) :: r, ys =>
    (match Dict.get? ys k with
      | some w => almostEq v w
      | none => false) && almostEqAll r ys
end

section Merge
variable {κ M : Type} [DecidableEq κ]

/-- aviary/utils/merge_variable_metadata.py:25-78 `merge_2_meta_data_dicts`, with the value comparison `ae` as a parameter.
Simplifications: the order of the resulting dict is that of the arguments (the code uses `sorted` for the
duplicates and set order for the rest); which duplicate key is reported in the error is not modelled. -/
def merge2 (ae : M → M → Bool) (d1 d2 : Dict κ M) : Except Err (Dict κ M) :=
  -- lines 50-54
  let dup := d1.filter (fun p => Dict.has d2 p.1)
  let only1 := d1.filter (fun p => !Dict.has d2 p.1)
  let only2 := d2.filter (fun p => !Dict.has d1 p.1)
  -- lines 66-73
  if dup.all (fun p => match Dict.get? d2 p.1 with
      | some v2 => ae p.2 v2
      | none => true) then
    -- lines 58-61, 76, 79
    .ok (dup ++ (only1 ++ only2))
  else .error .valueError

/-- aviary/utils/merge_variable_metadata.py:85-112 `merge_meta_data`: starts from the first dictionary and merges every
dictionary of the list into it, the first one included. -/
def mergeAll (ae : M → M → Bool) : List (Dict κ M) → Except Err (Dict κ M)
  | [] => .error .indexError
  | d :: ds => (d :: ds).foldlM (merge2 ae) d

end Merge

/-! ## Registration -/

/-- Types a metadata entry may declare (abbreviated).
Part of the model of aviary/utils/develop_metadata.py:110-118. -/
inductive MTy
  | float | str | bool | int | noneType | cls (name : String)
  deriving DecidableEq

/-- Default values, reduced to what `add_meta_data` looks at: `None`, something `float()` accepts (with the
float it denotes), or something it does not accept (with its type).
Part of the model of aviary/utils/develop_metadata.py:110-118. -/
inductive DefVal
  | none
  | numeric (q : Rat)
  | nonNumeric (t : MTy) (repr : String)
  deriving DecidableEq

/-- A metadata entry (aviary/utils/develop_metadata.py:110-118). -/
structure MEntry where
  historical : Option String
  units : String
  desc : Option String
  option : Bool
  default : DefVal
  types : Option MTy
  multivalue : Bool
  deriving DecidableEq

/-- Keyword arguments of `add_meta_data` / `update_meta_data`; `none` = keyword not given.  For `units` the
inner option is Python's `None`. Part of the model of aviary/utils/develop_metadata.py:1-12. -/
structure MArgs where
  units : Option (Option String) := none
  desc : Option String := none
  default : Option DefVal := none
  types : Option MTy := none
  multivalue : Option Bool := none
  option : Option Bool := none
  historical : Option String := none

/-- The entry built from the arguments (aviary/utils/develop_metadata.py:1-12 defaults, 95-118 body). -/
def MArgs.entry (a : MArgs) : MEntry :=
  let units := match a.units with
    | Option.none => "unitless"
    | some Option.none => "unitless"     -- lines 95-96
    | some (some u) => u
  let dv := a.default.getD (.numeric 0)
  -- lines 98-107; `float(default_value)` succeeds exactly on `numeric`
  let types := match a.types with
    | some t => some t
    | Option.none => match dv with
      | .none => Option.none
      | .numeric _ => some .float
      | .nonNumeric t _ => some t
  { historical := a.historical, units := units, desc := a.desc, option := a.option.getD false,
    default := dv, types := types, multivalue := a.multivalue.getD false }

/-- aviary/utils/develop_metadata.py:1-120 `add_meta_data`. -/
def addMeta (md : Dict String MEntry) (key : String) (a : MArgs) (checkUnique : Bool := true) :
    Except Err (Dict String MEntry) :=
  if Dict.has md key && checkUnique then .error .valueError
  else .ok (Dict.set md key a.entry)

/-- aviary/utils/develop_metadata.py:123-224 `update_meta_data`. -/
def updateMeta (md : Dict String MEntry) (key : String) (a : MArgs) : Except Err (Dict String MEntry) :=
  if !Dict.has md key then .error .valueError
  else addMeta md key a false

/-- One registration call; a raised exception leaves the dictionary alone.
Part of the model of aviary/utils/develop_metadata.py:123-224. -/
inductive MOp
  | add (key : String) (a : MArgs)
  | upd (key : String) (a : MArgs)

/-- `MOp.key`: part of the model of aviary/utils/develop_metadata.py:123-224. -/
def MOp.key : MOp → String
  | .add k _ => k
  | .upd k _ => k

/-- `MOp.args`: part of the model of aviary/utils/develop_metadata.py:123-224. -/
def MOp.args : MOp → MArgs
  | .add _ a => a
  | .upd _ a => a

/-- `mstep`: part of the model of aviary/utils/develop_metadata.py:123-224. -/
def mstep (md : Dict String MEntry) (o : MOp) : Dict String MEntry :=
  match (match o with
    | .add k a => addMeta md k a
    | .upd k a => updateMeta md k a) with
  | .ok md' => md'
  | .error _ => md

end Verif
