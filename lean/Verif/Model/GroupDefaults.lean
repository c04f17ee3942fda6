import Verif.Model.Declare
import Mathlib.Data.List.Infix

/-!
# Values given to the inputs of the Aviary group

aviary/core/aviary_group.py:90-189 (`configure`, the part before the solvers) and aviary/variable_info/options.py:9-53.
-/

namespace Verif.GroupDefaults

open Declare

/-- `name.startswith(p)`, aviary/core/aviary_group.py:126-131, aviary/core/aviary_group.py:153. -/
def starts (p name : String) : Bool := decide (p.toList <+: name.toList)

/-- `name.removeprefix('parameters:')`, aviary/core/aviary_group.py:136-138. -/
def stripParam (name : String) : String :=
  if starts "parameters:" name then String.ofList (name.toList.drop 11) else name

/-- An input of a subgroup: promoted name, whether it takes its shape from the connection, else the number of its entries (shapes are
never `None` here).  aviary/core/aviary_group.py:124-147. -/
structure Inp where
  name : String
  sbc : Bool
  size : ℕ

/-- A subsystem: whether it is a group, its path, the promoted names listed for it, the promotions requested on it (name or name and
alias), and its inputs.  aviary/core/aviary_group.py:99-147. -/
structure Sub where
  isGroup : Bool
  path : String
  listed : List String
  promotes : List (String ⊕ String × String)
  inputs : List Inp

/-- Promoted names of one subsystem, in the order of the code: listed names, aliases, plain promotions.  Patterns like `aircraft:*`
are names like any other.  aviary/core/aviary_group.py:99-111. -/
def promoted (s : Sub) : List String :=
  s.listed ++ s.promotes.filterMap (fun p => match p with | .inr (_, a) => some a | .inl _ => none) ++
    s.promotes.filterMap (fun p => match p with | .inl n => some n | .inr _ => none)

/-- aviary/core/aviary_group.py:95-111. -/
def allPromoted (ss : List Sub) : List String := ss.flatMap promoted

/-- Inputs of a subgroup that are looked at, under the name used later.  aviary/core/aviary_group.py:123-138. -/
def looked (s : Sub) : List Inp :=
  (s.inputs.filter (fun i => if s.path = "traj" then starts "parameters:" i.name
    else starts "aircraft" i.name || starts "mission" i.name)).map (fun i => { i with name := stripParam i.name })

/-- aviary/core/aviary_group.py:122-147. -/
def allLooked (ss : List Sub) : List Inp := (ss.filter (·.isGroup)).flatMap looked

/-- The loop over the inputs: names with and without `shape_by_conn`, and the shapes.  aviary/core/aviary_group.py:119-147. -/
def scan : List Inp → List String × List String × Dict String ℕ → List String × List String × Dict String ℕ
  | [], st => st
  | i :: r, (a, b, d) =>
    if i.sbc then scan r (i.name :: a, b, d)
    else scan r (a, i.name :: b, if 1 < i.size then d.set i.name i.size else d)

/-- `key not in sbc_only_vars`, aviary/core/aviary_group.py:149, aviary/core/aviary_group.py:177. -/
def getsVal (ss : List Sub) (key : String) : Bool :=
  let r := scan (allLooked ss) ([], [], [])
  !(decide (key ∈ r.1) && !decide (key ∈ r.2.1))

/-- `val = np.empty(shape); val[:] = scalar` for a scalar; other values stay.  aviary/core/aviary_group.py:181-185. -/
def fill (n : ℕ) : PVal → Except Err PVal
  | .int i => .ok (.arrF (List.replicate n (i : ℚ)))
  | .float q => .ok (.arrF (List.replicate n q))
  | .bool b => .ok (.arrF (List.replicate n (if b then 1 else 0)))
  | .str _ => .error .valueError
  | v => .ok v

/-- A call `set_input_defaults(key, units=…, val=…)`, aviary/core/aviary_group.py:173-189. -/
structure Call where
  key : String
  units : String
  val : Option PVal

/-- The default of the metadata, broadcast to the shape of a variable with several values.  aviary/core/aviary_group.py:164-185. -/
def metaVal (ss : List Sub) (key : String) (m : VarMeta) : Except Err PVal :=
  match m.multivalue, Dict.get? (scan (allLooked ss) ([], [], [])).2.2 key with
  | true, some n => fill n m.dflt
  | _, _ => .ok m.dflt

/-- Whether a variable is considered, aviary/core/aviary_group.py:151-161. -/
def considered (ss : List Sub) (key : String) (m : VarMeta) : Bool :=
  decide (':' ∈ key.toList) && !starts "dynamic:" key && !m.option && decide (key ∈ allPromoted ss)

/-- One round of the loop over the metadata.  aviary/core/aviary_group.py:151-189. -/
def one (ss : List Sub) (user : Dict String (PVal × String)) (key : String) (m : VarMeta) : Except Err (Option Call) :=
  if considered ss key m = false then .ok none
  else match user.get? key with
    | some (v, u) => .ok (some ⟨key, u, if getsVal ss key then some v else none⟩)
    | none => match m.dflt with
      | .none => .ok none
      | _ => if getsVal ss key then (metaVal ss key m).map (fun v => some ⟨key, m.units, some v⟩)
        else .ok (some ⟨key, m.units, none⟩)

/-- The loop over the metadata.  aviary/core/aviary_group.py:151-189. -/
def configure (ss : List Sub) (user : Dict String (PVal × String)) : Dict String VarMeta → Except Err (List Call)
  | [] => .ok []
  | (k, m) :: r => match one ss user k m with
    | .error e => .error e
    | .ok c => match configure ss user r with
      | .error e => .error e
      | .ok cs => .ok (c.toList ++ cs)

/-- `get_option_defaults(engine=False)`: the defaults of all options that have one.  aviary/variable_info/options.py:9-38. -/
def optionDefaults (db : UnitDB) (rt : PyRT) (md : Dict String VarMeta) : Dict String VarMeta → NV → Except Err NV
  | [], s => .ok s
  | (k, m) :: r, s =>
    if m.option = true then match m.dflt with
      | .none => optionDefaults db rt md r s
      | v => match avSet db rt (md.map (fun p => (p.1, p.2.toMeta))) s k v (some m.units) with
        | .error e => .error e
        | .ok s' => optionDefaults db rt md r s'
    else optionDefaults db rt md r s

/-- `is_option`, aviary/variable_info/options.py:41-53. -/
def isOption (md : Dict String VarMeta) (k : String) : Except Err Bool :=
  match md.get? k with
  | some m => .ok m.option
  | none => .error .keyError

end Verif.GroupDefaults
