import Verif.Model.PyVal

/-!
# Phase options with units

`units_setter` and `AviaryOptionsDictionary`, aviary/utils/aviary_options_dict.py:8-152. The base class is OpenMDAO's
`OptionsDictionary` (external, trusted): assignment looks the name up, passes the value through the set function, checks
it (types, allowed values, bounds; here the predicate `valid`) and stores it.
-/

namespace Verif.POpt

/-- A declared option: units given to `declare` (`none`: no set function) and current value.
Part of the model of aviary/utils/aviary_options_dict.py:8-152. -/
structure Entry where
  units : Option String
  val : PVal

/-- `units_setter`, aviary/utils/aviary_options_dict.py:8-31. Of the things python can unpack in two, tuples and lists are modelled. -/
def unitsSetter (db : UnitDB) (units : String) : PVal → Except Err PVal
  | .tuple [v, u] | .list [v, u] => match v, u with
    | .none, _ => .ok (.tuple [.none, .str units])
    | v, .str u => (wrappedConvert db v u units).map fun w => .tuple [w, .str units]
    | _, _ => .error .typeError
  | .tuple _ | .list _ => .error .valueError
  | _ => .error .typeError

/-- `self[name] = value`. Part of the model of aviary/utils/aviary_options_dict.py:8-152. -/
def setItem (db : UnitDB) (valid : String → PVal → Bool) (d : Dict String Entry) (name : String) (value : PVal) :
    Except Err (Dict String Entry) :=
  match d.get? name with
  | none => .error .keyError
  | some e => do
    let v ← match e.units with
      | some u => unitsSetter db u value
      | none => .ok value
    if valid name v then .ok (d.set name ⟨e.units, v⟩) else .error .valueError

/-- aviary/utils/aviary_options_dict.py:72-79: a tuple whose second entry is `'unitless'`, for an option without units, stands for its first entry. -/
def legacy (d : Dict String Entry) (name : String) (val : PVal) : Except Err PVal :=
  match val with
  | .tuple xs => match d.get? name with
    | none => .error .keyError
    | some e => match e.units with
      | some _ => .ok val
      | none => match xs with
        | x :: .str "unitless" :: _ => .ok x
        | _ :: _ :: _ => .ok val
        | _ => .error .indexError
  | _ => .ok val

/-- `__init__`, aviary/utils/aviary_options_dict.py:70-81, `d` holding the declared options with their defaults. -/
def read (db : UnitDB) (valid : String → PVal → Bool) :
    Dict String Entry → List (String × PVal) → Except Err (Dict String Entry)
  | d, [] => .ok d
  | d, (name, val) :: rest => do
    let v ← legacy d name val
    let d' ← setItem db valid d name v
    read db valid d' rest

/-- `get_val`, aviary/utils/aviary_options_dict.py:121-152. -/
def getVal (db : UnitDB) (d : Dict String Entry) (key : String) (units : Option String) : Except Err PVal :=
  match d.get? key with
  | none => .error .keyError
  | some e => match units with
    | none => .ok e.val
    | some w => match e.units with
      | none => .error .attributeError
      | some _ => match e.val with
        | .tuple [v, .str b] => if w = b then .ok v else wrappedConvert db v b w
        | _ => .error .typeError

/-- `to_phase_info`, aviary/utils/aviary_options_dict.py:154-167. -/
def toPhaseInfo (d : Dict String Entry) : List (String × PVal) := d.map fun p => (p.1, p.2.val)

end Verif.POpt
