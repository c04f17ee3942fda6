import Verif.Model.NamedValues

/-!
# `enum_setter`, `cast_type`, `check_type` (/repo/aviary/utils/utils.py:74-259) and
`AviaryValues.set_val` (/repo/aviary/utils/aviary_values.py:30-77)
-/

namespace Verif

/-- Python built-ins used by casting that are left abstract: text to number, `str(x)`, `np.ndarray(x)`.
Part of the model of aviary/utils/utils.py:241-252. -/
structure PyRT where
  parseFloat : String → Option ℚ
  parseInt : String → Option Int
  strOf : PVal → String
  ndarrayOf : PVal → Option PVal

/-- Metadata of one variable, the fields used here (aviary/utils/develop_metadata.py:110-120).
`types = none` is Python's `None`; a single type is a one element list. -/
structure Meta where
  types : Option (List Ty)
  multivalue : Bool
  units : String

/-! ## Enum lookup -/

/-- `enum_class(value)`: first member whose value equals the argument, else `ValueError`.
Part of the model of aviary/utils/utils.py:105-108. -/
def EnumCls.byValue (c : EnumCls) (v : EVal) : Except Err PVal :=
  match c.members.find? (fun m => m.2 = v) with
  | some m => .ok (.enum c m.1)
  | none => .error .valueError

/-- `getattr(enum_class, name)`: the member, else `AttributeError`.
Simplification: attributes of the class that are not members are not modelled.
Part of the model of aviary/utils/utils.py:105-108. -/
def EnumCls.byName (c : EnumCls) (n : String) : Except Err PVal :=
  match c.members.find? (fun m => m.1 = n) with
  | some m => .ok (.enum c m.1)
  | none => .error .attributeError

/-- aviary/utils/utils.py:105-108 and 124-129: value first, then upper-cased name. -/
def EnumCls.ofStr (c : EnumCls) (s : String) : Except Err PVal :=
  match c.byValue (.str s) with
  | .ok v => .ok v
  | .error .valueError => c.byName s.toUpper
  | .error e => .error e

/-- Outcome of one pass of the loop at aviary/utils/utils.py:118-131. -/
inductive EnumLoop
  /-- `return` inside the loop -/
  | ret (v : PVal)
  /-- the `for` ran to its `else` clause with these values -/
  | done (vs : List PVal)
  /-- `break` with the values collected so far -/
  | brk (vs : List PVal)

/-- aviary/utils/utils.py:118-131 with the accumulated `values`.
`bool` is an `int` instance; `enum_class(True)` looks up the value 1. -/
def enumLoop (c : EnumCls) : List PVal → List PVal → Except Err EnumLoop
  | [], acc => .ok (.done acc)
  | .enum c' m :: vs, acc => enumLoop c vs (acc ++ [.enum c' m])
  | .int i :: vs, acc => do
      let v ← c.byValue (.int i)
      enumLoop c vs (acc ++ [v])
  | .bool b :: vs, acc => do
      let v ← c.byValue (.int (if b then 1 else 0))
      enumLoop c vs (acc ++ [v])
  | .str s :: _, _ => do
      let v ← c.ofStr s
      .ok (.ret v)
  | _ :: _, acc => .ok (.brk acc)

/-- aviary/utils/utils.py:74-142 `enum_setter` for an option whose enum class is `c`.
`np.array(values)` of enum members is an object array; `ndarray.tolist()` of a float/int array gives floats
or ints.  A `break` (line 131) returns the plain list collected so far (line 139). -/
def enumSetter (c : EnumCls) (v : PVal) : Except Err PVal :=
  let fin (re : List PVal → PVal) (xs : List PVal) : Except Err PVal := do
    match ← enumLoop c xs [] with
    | .ret v => .ok v
    | .done vs => .ok (re vs)
    | .brk vs => .ok (.list vs)
  match v with
  | .enum c' m => .ok (.enum c' m)
  | .int i => c.byValue (.int i)
  | .bool b => c.byValue (.int (if b then 1 else 0))
  | .str s => c.ofStr s
  | .list xs => fin .list xs
  | .tuple xs => fin .tuple xs
  | .arrO xs => fin .arrO xs
  | .arrI xs => fin .arrO (xs.map .int)
  | .arrF xs => fin .arrO (xs.map .float)
  | _ => .error .typeError

/-! ## Type casting and checking -/

/-- Elements of an iterable as seen by a Python `for` loop. Part of the model of aviary/utils/utils.py:241-252. -/
def elements : PVal → List PVal
  | .list xs => xs
  | .tuple xs => xs
  | .arrO xs => xs
  | .arrF xs => xs.map .float
  | .arrI xs => xs.map .int
  | _ => []

/-- Truth value used by `bool(x)`.  Simplification: arrays are truthy when non-empty.
Part of the model of aviary/utils/utils.py:241-252. -/
def truthy : PVal → Bool
  | .none => false
  | .bool b => b
  | .int i => i ≠ 0
  | .float q => q ≠ 0
  | .str s => s ≠ ""
  | .enum _ _ => true
  | .list xs => !xs.isEmpty
  | .tuple xs => !xs.isEmpty
  | .arrF xs => !xs.isEmpty
  | .arrI xs => !xs.isEmpty
  | .arrO xs => !xs.isEmpty

/-- `_type(v)`; `none` means `ValueError` or `TypeError`. Part of the model of aviary/utils/utils.py:241-252. -/
def callTy (rt : PyRT) : Ty → PVal → Option PVal
  | .bool, v => some (.bool (truthy v))
  | .int, .int i => some (.int i)
  | .int, .bool b => some (.int (if b then 1 else 0))
  | .int, .float q => some (.int (truncToInt q))
  | .int, .str s => (rt.parseInt s).map .int
  | .int, _ => none
  | .float, .float q => some (.float q)
  | .float, .int i => some (.float i)
  | .float, .bool b => some (.float (if b then 1 else 0))
  | .float, .str s => (rt.parseFloat s).map .float
  | .float, _ => none
  | .str, v => some (.str (rt.strOf v))
  | .list, v => if isIterable v then some (.list (elements v)) else none
  | .tuple, v => if isIterable v then some (.tuple (elements v)) else none
  | .ndarray, v => rt.ndarrayOf v
  | .enum _, _ => none

/-- `np.array([...])`: all ints give an int array, ints and floats a float array, anything else an object
array (strings and nested lists are represented as object arrays).
Part of the model of aviary/utils/utils.py:241-252. -/
def npArray (xs : List PVal) : PVal :=
  match xs.mapM (fun v => match v with | .int i => some i | _ => none) with
  | some is => .arrI is
  | none => match xs.mapM (fun v => match v with
      | .int i => some (i : ℚ) | .float q => some q | _ => none) with
    | some qs => .arrF qs
    | none => .arrO xs

/-- Body of the loop aviary/utils/utils.py:241-252 for one type; `none` is the handled `ValueError`/`TypeError`. -/
def castOne (rt : PyRT) (t : Ty) (v : PVal) : Option PVal :=
  match v with
  | .list xs => (xs.mapM (callTy rt t)).map .list
  | .tuple xs => (xs.mapM (callTy rt t)).map .tuple
  | .arrF xs => ((xs.map .float).mapM (callTy rt t)).map npArray
  | .arrI xs => ((xs.map .int).mapM (callTy rt t)).map npArray
  | .arrO xs => (xs.mapM (callTy rt t)).map npArray
  | v =>
    if t = .bool then some v                              -- line 248: never cast a scalar to bool
    else if t = .ndarray then some (npArray [v])          -- line 250
    else callTy rt t v

/-- Loop aviary/utils/utils.py:240-257: first type whose cast does not raise wins. -/
def castLoop (rt : PyRT) : List Ty → PVal → PVal
  | [], v => v
  | t :: ts, v => match castOne rt t v with
    | some w => w
    | none => castLoop rt ts v

/-- First `Enum` class among the types (aviary/utils/utils.py:93-96, 233-236). -/
def firstEnum : List Ty → Option EnumCls
  | [] => none
  | .enum c :: _ => some c
  | _ :: ts => firstEnum ts

/-- aviary/utils/utils.py:212-259 `cast_type` for a key that is in the metadata.  With `types = None` line 229 evaluates
`isinstance(val, (None,))`, which raises `TypeError`. -/
def castType (rt : PyRT) (m : Meta) (v : PVal) : Except Err PVal :=
  match m.types with
  | none => .error .typeError
  | some ts =>
    if isInstanceAny v ts then .ok v
    else match firstEnum ts with
      | some c => enumSetter c v
      | none => .ok (castLoop rt ts v)

mutual
/-- aviary/utils/utils.py:151-157 `_flatten_iters` on one item. -/
def flattenVal : PVal → List PVal
  | .list xs => flattenList xs
  | .tuple xs => flattenList xs
  | .arrO xs => flattenList xs
  | .arrF xs => xs.map .float
  | .arrI xs => xs.map .int
  | v => [v]
/-- `flattenList`: part of the model of aviary/utils/utils.py:151-157. -/
def flattenList : List PVal → List PVal
  | [] => []
  | x :: xs => flattenVal x ++ flattenList xs
end

/-- aviary/utils/utils.py:184-187: the first innermost entry of a non-empty array (`none`: `IndexError` on an empty
nested iterable). -/
def firstLeaf : PVal → Option PVal
  | .list [] => none
  | .list (x :: _) => firstLeaf x
  | .tuple [] => none
  | .tuple (x :: _) => firstLeaf x
  | .arrO [] => none
  | .arrO (x :: _) => firstLeaf x
  | .arrF [] => none
  | .arrF (q :: _) => some (.float q)
  | .arrI [] => none
  | .arrI (i :: _) => some (.int i)
  | v => some v

/-- aviary/utils/utils.py:197-209: one item is acceptable. -/
def itemOk (ts : List Ty) (item : PVal) : Bool :=
  isInstanceAny item ts && (decide (Ty.bool ∈ ts) || !isInstance item .bool)

/-- aviary/utils/utils.py:145-209 `check_type`. -/
def checkType (m : Meta) (v : PVal) : Except Err Unit :=
  match m.types with
  | none => .ok ()
  | some ts =>
    -- lines 168-179
    if isIterable v && !(isInstanceAny v (if m.multivalue then [.list, .ndarray, .tuple] ++ ts else ts)) then
      .error .typeError
    else
      -- lines 184-194
      let items : Except Err (List PVal) := match v with
        | .arrF [] => .ok []
        | .arrI [] => .ok []
        | .arrO [] => .ok []
        | .arrF (q :: _) => .ok [.float q]
        | .arrI (i :: _) => .ok [.int i]
        | .arrO (x :: _) => match firstLeaf x with
          | some y => .ok [y]
          | none => .error .indexError
        | v => .ok (flattenVal v)
      match items with
      | .error e => .error e
      | .ok is => if is.all (itemOk ts) then .ok () else .error .typeError

/-- aviary/utils/aviary_values.py:58-77 `_check_units_compatibility`. -/
def checkCompat (db : UnitDB) (m : Meta) (units : Option String) : Except Err Unit :=
  match units with
  | none => .ok ()    -- `convert_units(10, expected, None)` returns at once
  | some u => match convertUnits db 10 m.units u with
    | .ok _ => .ok ()
    | .error .valueError => .error .valueError
    | .error .typeError => .error .typeError
    | .error _ => .error .keyError

/-- aviary/utils/aviary_values.py:30-56 `AviaryValues.set_val`. -/
def avSet (db : UnitDB) (rt : PyRT) (md : Dict String Meta) (s : NV) (k : String) (v : PVal)
    (units : Option String) : Except Err NV :=
  match Dict.get? md k with
  | none => NV.setVal s k v units
  | some m => do
    let v ← castType rt m v
    checkType m v
    checkCompat db m units
    NV.setVal s k v units

/-- A call of `set_val`. Part of the model of aviary/utils/aviary_values.py:30-56. -/
structure SetCall where
  key : String
  val : PVal
  units : Option String

/-- State after a call, unchanged when it raises (the assignment is the last action).
Part of the model of aviary/utils/aviary_values.py:30-56. -/
def avStep (db : UnitDB) (rt : PyRT) (md : Dict String Meta) (s : NV) (c : SetCall) : NV :=
  match avSet db rt md s c.key c.val c.units with
  | .ok s' => s'
  | .error _ => s

/-- A history of calls on an empty container. Part of the model of aviary/utils/aviary_values.py:30-56. -/
def avRun (db : UnitDB) (rt : PyRT) (md : Dict String Meta) (cs : List SetCall) : NV :=
  cs.foldl (avStep db rt md) []

end Verif
