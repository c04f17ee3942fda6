import Mathlib.Data.Rat.Defs
import Mathlib.Data.Rat.Floor
import Verif.Model.Dict

/-!
# Python values and types handled by the option containers, and OpenMDAO's unit conversion

Floats are modelled as exact rationals (no rounding, NaN or inf).  Numpy arrays are one dimensional and
either of float, integer or object dtype.
-/

namespace Verif

/-- Value of an `Enum` member (/repo/aviary/variable_info/enums.py: members carry ints or strings). -/
inductive EVal
  | int (i : Int) | str (s : String)
  deriving DecidableEq, Repr

/-- An `Enum` class: name, whether it is an `IntEnum` (only `Verbosity` is, aviary/variable_info/enums.py:280), members. -/
structure EnumCls where
  name : String
  isInt : Bool
  members : List (String × EVal)
  deriving DecidableEq, Repr

/-- Python values. `enum c m` is the member called `m` of class `c`.
Part of the model of aviary/variable_info/enums.py:280. -/
inductive PVal
  | none
  | bool (b : Bool)
  | int (i : Int)
  | float (q : ℚ)
  | str (s : String)
  | enum (c : EnumCls) (m : String)
  | list (xs : List PVal)
  | tuple (xs : List PVal)
  | arrF (xs : List ℚ)
  | arrI (xs : List Int)
  | arrO (xs : List PVal)

/-- Python types that occur in metadata `types`. Part of the model of aviary/variable_info/enums.py:280. -/
inductive Ty
  | bool | int | float | str | list | tuple | ndarray
  | enum (c : EnumCls)
  deriving DecidableEq, Repr

/-- `isinstance(v, t)`; `bool` is a subclass of `int`, an `IntEnum` member is an `int`.
Part of the model of aviary/variable_info/enums.py:280. -/
def isInstance : PVal → Ty → Bool
  | .bool _, .bool => true
  | .bool _, .int => true
  | .int _, .int => true
  | .float _, .float => true
  | .str _, .str => true
  | .enum c _, .enum c' => c = c'
  | .enum c _, .int => c.isInt
  | .list _, .list => true
  | .tuple _, .tuple => true
  | .arrF _, .ndarray => true
  | .arrI _, .ndarray => true
  | .arrO _, .ndarray => true
  | _, _ => false

/-- `isinstance(v, (t1, t2, ...))`. Part of the model of aviary/variable_info/enums.py:280. -/
def isInstanceAny (v : PVal) (ts : List Ty) : Bool := ts.any (isInstance v)

/-- /repo/aviary/utils/utils.py:16-28 `isiterable` with the default iterables. -/
def isIterable : PVal → Bool
  | .list _ => true
  | .tuple _ => true
  | .arrF _ => true
  | .arrI _ => true
  | .arrO _ => true
  | _ => false

/-! ## Units -/

/-- A unit of the OpenMDAO unit library: dimension vector (as an identifier), factor and offset such that
`(x + offset) * factor` is the value in base units (openmdao.utils.units.PhysicalUnit; trusted).
Part of the model of /repo/aviary/utils/utils.py:16-28. -/
structure UnitDef where
  dim : Nat
  factor : ℚ
  offset : ℚ
  deriving DecidableEq, Repr

/-- The unit library: a partial map from unit strings. Part of the model of /repo/aviary/utils/utils.py:16-28. -/
abbrev UnitDB := String → Option UnitDef

/-- Every unit has a non-zero factor. Part of the model of /repo/aviary/utils/utils.py:16-28. -/
def UnitDB.Sane (db : UnitDB) : Prop := ∀ s u, db s = some u → u.factor ≠ 0

/-- openmdao.utils.units.convert_units on a number (external, trusted): empty unit strings mean "no
conversion", unknown units raise `ValueError`, incompatible ones `TypeError`.
Part of the model of aviary/utils/utils.py:64,69. -/
def convertUnits (db : UnitDB) (x : ℚ) (old new : String) : Except Err ℚ :=
  if old = "" ∨ new = "" then .ok x
  else match db old, db new with
    | some u, some w =>
      if u.dim = w.dim then
        .ok ((x + (u.offset - w.offset * w.factor / u.factor)) * (u.factor / w.factor))
      else .error .typeError
    | _, _ => .error .valueError

/-- `convert_units` applied to a Python value that is not one of the iterables of `isiterable`
(aviary/utils/utils.py:64,69): arithmetic on a non-number raises `TypeError`, but when one side has no units the value is
returned untouched before any arithmetic. -/
def convertLeaf (db : UnitDB) (v : PVal) (old new : String) : Except Err PVal :=
  if old = "" ∨ new = "" then .ok v
  else match v with
    | .int i => (convertUnits db i old new).map .float
    | .float q => (convertUnits db q old new).map .float
    | .bool b => (convertUnits db (if b then 1 else 0) old new).map .float
    | _ => match db old, db new with
      | some _, some _ => .error .typeError
      | _, _ => .error .valueError

/-- Loop of aviary/utils/utils.py:61-64 over a Python list: `None` entries are kept. -/
def convertItems (db : UnitDB) (old new : String) : List PVal → Except Err (List PVal)
  | [] => .ok []
  | .none :: xs => do
      let ys ← convertItems db old new xs
      .ok (.none :: ys)
  | x :: xs => do
      let y ← convertLeaf db x old new
      let ys ← convertItems db old new xs
      .ok (y :: ys)

/-- Truncation toward zero: what numpy does when a float is stored into an integer array.
Part of the model of /repo/aviary/utils/utils.py:31-71. -/
def truncToInt (q : ℚ) : Int := if 0 ≤ q then ⌊q⌋ else ⌈q⌉

/-- /repo/aviary/utils/utils.py:31-71 `wrapped_convert_units((val, old), new)`.
List branch: lines 53-67, scalar branch: line 69.  The loop assigns into the (deep-copied) container, so an
integer ndarray keeps its integer dtype and truncates (line 64, numpy semantics).  Results of the float
conversion of an `arrO` are stored as objects. -/
def wrappedConvert (db : UnitDB) (v : PVal) (old new : String) : Except Err PVal :=
  match v with
  | .none => .ok .none
  | .list xs => (convertItems db old new xs).map .list
  | .tuple xs => (convertItems db old new xs).map .tuple
  | .arrF xs => (xs.mapM (fun q => convertUnits db q old new)).map .arrF
  | .arrI xs => (xs.mapM (fun i : Int => (convertUnits db (i : ℚ) old new).map truncToInt)).map .arrI
  | .arrO xs => (convertItems db old new xs).map .arrO
  | v => convertLeaf db v old new

end Verif
