import Verif.Model.PyVal

/-!
# `NamedValues` (/repo/aviary/utils/named_values.py)

The state is `_mapping`. `units` arguments are `Option String`; `none` stands for `None` or any non-`str`.
-/

namespace Verif

/-- `Item`: part of the model of aviary/utils/named_values.py:52. -/
abbrev Item := PVal × String

/-- `_mapping` (aviary/utils/named_values.py:52). -/
abbrev NV := Dict String Item

namespace NV

/-- aviary/utils/named_values.py:291-310 `_check_units`. -/
def checkUnits : Option String → Except Err String
  | none => .error .typeError
  | some u => .ok u

/-- aviary/utils/named_values.py:56-84 `get_item`. -/
def getItem (s : NV) (k : String) : Except Err Item :=
  match Dict.get? s k with
  | none => .error .keyError
  | some it => .ok it

/-- aviary/utils/named_values.py:114-151 `get_val`: units are checked first, then the key, then conversion. -/
def getVal (db : UnitDB) (s : NV) (k : String) (units : Option String) : Except Err PVal := do
  let u ← checkUnits units
  match Dict.get? s k with
  | none => .error .keyError
  | some (v, old) => if old ≠ u then wrappedConvert db v old u else .ok v

/-- aviary/utils/named_values.py:153-178 `set_val`. -/
def setVal (s : NV) (k : String) (v : PVal) (units : Option String) : Except Err NV := do
  let u ← checkUnits units
  .ok (Dict.set s k (v, u))

/-- aviary/utils/named_values.py:253-266 `delete`. -/
def delete (s : NV) (k : String) : Except Err NV :=
  if Dict.has s k then .ok (Dict.erase s k) else .error .keyError

/-- aviary/utils/named_values.py:196-198 `clear`. -/
def clear (_ : NV) : NV := []

/-- One call of the mutating interface. Part of the model of aviary/utils/named_values.py:32-291. -/
inductive Op
  | set (k : String) (v : PVal) (units : Option String)
  | del (k : String)
  | clear

/-- State after one call and the exception it raised, if any; a raising call leaves `_mapping` alone
because the check precedes the assignment (aviary/utils/named_values.py:176-178, 262-266). -/
def step (s : NV) : Op → NV × Option Err
  | .set k v u => match setVal s k v u with
    | .ok s' => (s', none)
    | .error e => (s, some e)
  | .del k => match delete s k with
    | .ok s' => (s', none)
    | .error e => (s, some e)
  | .clear => (clear s, none)

/-- State after a history of calls on a new container (aviary/utils/named_values.py:52). -/
def run (ops : List Op) : NV := ops.foldl (fun s o => (step s o).1) []

/-- One `(key, (val, units))` pair given to `update`. Part of the model of aviary/utils/named_values.py:32-291. -/
structure Upd where
  key : String
  val : PVal
  units : Option String

/-- The method `self.set_val` that `update` looks up on the object (aviary/utils/named_values.py:229): `NamedValues.set_val` or the
override in `AviaryValues`. -/
abbrev Setter := NV → Upd → Except Err NV

/-- `NamedValues.set_val` as a setter. Part of the model of aviary/utils/named_values.py:196-198. -/
def baseSetter : Setter := fun s u => setVal s u.key u.val u.units

/-- The loops of aviary/utils/named_values.py:241-251: `set_val` on each pair until one raises. -/
def applyAll (set : Setter) (s : NV) : List Upd → NV × Option Err
  | [] => (s, none)
  | u :: us => match set s u with
    | .ok s' => applyAll set s' us
    | .error e => (s, some e)

/-- The class of a container object. Part of the model of aviary/utils/named_values.py:231-248. -/
inductive Cls
  | namedValues | aviaryValues
  deriving DecidableEq, Repr

/-- `isinstance(x, c)` for the two container classes (`AviaryValues` subclasses `NamedValues`).
Part of the model of aviary/utils/named_values.py:231-248. -/
def Cls.isSub : Cls → Cls → Bool
  | .aviaryValues, _ => true
  | .namedValues, .namedValues => true
  | .namedValues, .aviaryValues => false

/-- The collections `update` documents as supported (aviary/utils/named_values.py:218-221), with their pairs in iteration order. -/
inductive Source
  | container (c : Cls) (items : List Upd)
  | dict (items : List Upd)
  | iterable (items : List Upd)

/-- `Source.items`: part of the model of aviary/utils/named_values.py:200-251. -/
def Source.items : Source → List Upd
  | .container _ us => us
  | .dict us => us
  | .iterable us => us

/-- aviary/utils/named_values.py:231-248.  A container that is an instance of `type(self)` is replaced by its mapping;
any other container still has `keys` and takes the dictionary branch, where `other[key]` (line 247) raises
`TypeError` because the class defines no `__getitem__`.
Simplification: unpacking errors for malformed pairs are not modelled. -/
def applySource (self : Cls) (set : Setter) (s : NV) : Source → NV × Option Err
  | .container c us =>
    if c.isSub self then applyAll set s us
    else match us with
      | [] => (s, none)
      | _ :: _ => (s, some .typeError)
  | .dict us => applyAll set s us
  | .iterable us => applyAll set s us

/-- aviary/utils/named_values.py:200-251 `update(other, **kwargs)` of an object of class `self`. -/
def update (self : Cls) (set : Setter) (s : NV) (other : Option Source) (kwargs : List Upd) : NV × Option Err :=
  -- line 226: `if not (other or kwargs): return`
  if ((other.map Source.items).getD []).isEmpty ∧ kwargs.isEmpty then (s, none)
  else
    match other with
    | none => applyAll set s kwargs
    | some src => match applySource self set s src with
      | (s', none) => applyAll set s' kwargs
      | (s', some e) => (s', some e)

/-! ## `copy` and `deepcopy`: containers as references into a heap of mappings

`NamedValues` defines `__slots__ = ('_mapping',)` (line 35) and no `__copy__`, so `copy.copy` (line 98)
builds a new object whose slot refers to the SAME dict; `copy.deepcopy` (line 112) allocates a new dict. -/

/-- A heap of mapping objects. Part of the model of aviary/utils/named_values.py:200-251. -/
structure Heap where
  cells : List NV

/-- A `NamedValues` object: the address of its `_mapping`.
Part of the model of aviary/utils/named_values.py:200-251. -/
abbrev Ref := Nat

/-- `Heap.read`: part of the model of aviary/utils/named_values.py:200-251. -/
def Heap.read (h : Heap) (r : Ref) : NV := h.cells.getD r []

/-- `Heap.write`: part of the model of aviary/utils/named_values.py:200-251. -/
def Heap.write (h : Heap) (r : Ref) (s : NV) : Heap := ⟨h.cells.set r s⟩

/-- A mutating call on the object `r`. Part of the model of aviary/utils/named_values.py:200-251. -/
def Heap.call (h : Heap) (r : Ref) (o : Op) : Heap := h.write r (step (h.read r) o).1

/-- aviary/utils/named_values.py:86-98 `copy`. -/
def Heap.copy (h : Heap) (r : Ref) : Heap × Ref := (h, r)

/-- aviary/utils/named_values.py:100-112 `deepcopy` (values are immutable in this model). -/
def Heap.deepcopy (h : Heap) (r : Ref) : Heap × Ref := (⟨h.cells ++ [h.read r]⟩, h.cells.length)

end NV
end Verif
