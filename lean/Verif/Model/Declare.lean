import Verif.Model.AviaryValues
import Verif.Model.OptionsDict
import Verif.Model.UnitDims
import Verif.Data.DeclTable

/-!
# `add_aviary_input`, `add_aviary_output`, `add_aviary_option`

aviary/variable_info/functions.py:22-277.  Arrays are one dimensional, so a shape is its number of entries.
-/

namespace Verif.Declare

/-- An entry of the metadata, aviary/utils/develop_metadata.py:110-120. -/
structure VarMeta extends Meta where
  dflt : PVal
  desc : String
  option : Bool

/-- Numbers of a list of values, `none` if one is not a number; for aviary/variable_info/functions.py:74. -/
def numbers : List PVal → Option (List ℚ)
  | [] => some []
  | .int i :: r => (numbers r).map ((i : ℚ) :: ·)
  | .float q :: r => (numbers r).map (q :: ·)
  | .bool b :: r => (numbers r).map ((if b then 1 else 0) :: ·)
  | _ :: _ => none

/-- `np.ones(n) * xs` with numpy's broadcasting, aviary/variable_info/functions.py:74. -/
def broadcast (n : ℕ) (xs : List ℚ) : Except Err PVal :=
  if xs.length = n ∨ n = 1 then .ok (.arrF xs)
  else match xs with
    | [q] => .ok (.arrF (List.replicate n q))
    | _ => .error .valueError

/-- `np.ones(n) * val`.  Members of an `IntEnum` are not treated as numbers.
aviary/variable_info/functions.py:74, aviary/variable_info/functions.py:153. -/
def onesTimes (n : ℕ) : PVal → Except Err PVal
  | .int i => .ok (.arrF (List.replicate n (i : ℚ)))
  | .float q => .ok (.arrF (List.replicate n q))
  | .bool b => .ok (.arrF (List.replicate n (if b then 1 else 0)))
  | .arrF xs => broadcast n xs
  | .arrI xs => broadcast n (xs.map (fun i : ℤ => (i : ℚ)))
  | .list xs => match numbers xs with | some l => broadcast n l | none => .error .typeError
  | .tuple xs => match numbers xs with | some l => broadcast n l | none => .error .typeError
  | .arrO xs => match numbers xs with | some l => broadcast n l | none => .error .typeError
  | _ => .error .typeError

/-- Arguments of `add_input` or `add_output`, aviary/variable_info/functions.py:91-101, aviary/variable_info/functions.py:170-179. -/
structure Decl where
  val : PVal
  units : String
  desc : String
  shape : Option ℕ

/-- Which of the two helpers, aviary/variable_info/functions.py:22, aviary/variable_info/functions.py:103. -/
inductive IO | input | output
  deriving DecidableEq, Repr

/-- The shape that is passed on, aviary/variable_info/functions.py:91-100, aviary/variable_info/functions.py:170-179. -/
def passShape (io : IO) (shape : Option ℕ) : Option ℕ :=
  match io with
  | .input => shape
  | .output => none

/-- `if shape is not None: val = np.ones(shape) * val`, aviary/variable_info/functions.py:73-74. -/
def shaped (shape : Option ℕ) (v : PVal) : Except Err PVal :=
  match shape with
  | none => .ok v
  | some n => onesTimes n v

/-- Conversion to the requested units; a `ValueError` is raised again with another message, a `TypeError` passes.
aviary/variable_info/functions.py:76-84. -/
def requested (db : UnitDB) (m : VarMeta) (u : String) (v : PVal) : Except Err PVal :=
  if u ≠ m.units then wrappedConvert db v m.units u else .ok v

/-- `add_aviary_input` and `add_aviary_output`; the latter does not pass the shape on.
aviary/variable_info/functions.py:62-101, aviary/variable_info/functions.py:141-179. -/
def addVar (db : UnitDB) (rt : PyRT) (io : IO) (md : Dict String VarMeta) (name : String) (units desc : Option String)
    (shape : Option ℕ) : Except Err Decl :=
  match md.get? name with
  | none => .error .keyError
  | some m =>
    match shaped shape m.dflt with
    | .error e => .error e
    | .ok v0 =>
      match requested db m (units.getD m.units) v0 with
      | .error e => .error e
      | .ok v1 =>
        match castType rt m.toMeta v1 with
        | .error e => .error e
        | .ok v2 =>
          match checkType m.toMeta v2 with
          | .error e => .error e
          | .ok _ => .ok ⟨v2, units.getD m.units, desc.getD m.desc, passShape io shape⟩

/-- The set function of an option, aviary/variable_info/functions.py:259-277. -/
inductive Setter | none | units | enum
  deriving DecidableEq, Repr

/-- Arguments of `options.declare`: default, types (`none` when the metadata has none), set function, description, whether the extra
keyword arguments are passed; and whether a warning was given.  aviary/variable_info/functions.py:217-277. -/
structure OptDecl where
  dflt : PVal
  types : Option (List Ty)
  setter : Setter
  desc : String
  kwargs : Bool
  warned : Bool

/-- `types` before the branches: for several values the containers come first, aviary/variable_info/functions.py:252-257. -/
def optTypes (m : VarMeta) : Option (List Ty) :=
  m.types.map (fun ts => if m.multivalue then [.list, .ndarray, .tuple] ++ ts else ts)

/-- Type check of a value that is not `None`, aviary/variable_info/functions.py:243-248. -/
def optCheck (rt : PyRT) (m : VarMeta) : PVal → Except Err PVal
  | .none => .ok .none
  | v => match castType rt m.toMeta v with
    | .error e => .error e
    | .ok w => match checkType m.toMeta w with
      | .error e => .error e
      | .ok _ => .ok w

/-- The given value, else the default in the requested units, aviary/variable_info/functions.py:228-241. -/
def optStart (db : UnitDB) (m : VarMeta) (u : String) : Option PVal → Except Err PVal
  | some v => .ok v
  | none => requested db m u m.dflt

/-- `add_aviary_option`, aviary/variable_info/functions.py:210-277. -/
def addOption (db : UnitDB) (rt : PyRT) (md : Dict String VarMeta) (name : String) (val : Option PVal) (units desc : Option String) :
    Except Err OptDecl :=
  match md.get? name with
  | none => .error .keyError
  | some m =>
    let u := units.getD m.units
    match optStart db m u val with
    | .error e => .error e
    | .ok v0 =>
      match optCheck rt m v0 with
      | .error e => .error e
      | .ok v =>
        let d := desc.getD m.desc
        if u ≠ "unitless" then .ok ⟨.tuple [v, .str u], some [.tuple], .units, d, false, !m.option⟩
        else match v with
          | .enum c x => .ok ⟨.enum c x, optTypes m, .enum, d, true, !m.option⟩
          | v => .ok ⟨v, optTypes m, .none, d, true, !m.option⟩

/-- `options[name] = value` for a declared option, OpenMDAO calling the set function first.
aviary/utils/aviary_options_dict.py:8-31, aviary/utils/utils.py:74-142, aviary/variable_info/functions.py:259-277. -/
def setOption (db : UnitDB) (m : VarMeta) (d : OptDecl) (v : PVal) : Except Err PVal :=
  match d.setter with
  | .units => match d.dflt with
    | .tuple [_, .str u] => POpt.unitsSetter db u v
    | _ => .error .typeError
  | .enum => match m.types.bind firstEnum with
    | some c => enumSetter c v
    | none => .error .typeError
  | .none => .ok v

open MetaTable in
/-- Whether a call and its metadata agree: the units have the same dimensions, a shape is only given for several values, an input or
output has a default, and options are declared as options.  For the calls of aviary/variable_info/functions.py:22-277. -/
def callOk (m : Row) (c : Call) : Bool :=
  (match c.units with | none => true | some u => dims u == dims m.units && (dims u).isSome) && (!c.shape || m.multi) &&
    (c.helper == .option || m.dflt != .missing) && (c.helper == .option) == m.option

open MetaTable in
/-- Walk along the metadata and the calls, both in the order of the metadata; calls that do not agree are collected.  For the calls of
aviary/variable_info/functions.py:22-277. -/
def disagree : List Row → List Call → List Call
  | _, [] => []
  | [], cs => cs
  | m :: ms, c :: cs =>
    if m.name = c.name then (if callOk m c then [] else [c]) ++ disagree (m :: ms) cs
    else disagree ms (c :: cs)
  termination_by ms cs => ms.length + cs.length

end Verif.Declare
