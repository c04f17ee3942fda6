import Mathlib.Data.Nat.Notation
import Mathlib.Data.List.Infix
import Verif.Model.Dict

/-!
# Engine models and the propulsion groups

`aviary/subsystems/propulsion/engine_model.py`, `aviary/subsystems/propulsion/propulsion_builder.py`, `aviary/subsystems/propulsion/propulsion_premission.py` and
`aviary/subsystems/propulsion/propulsion_mission.py`.

Simplifications: OpenMDAO is modelled by what the calls ask for, that is which value reaches which
input; a mission group is modelled at one node, since every engine works node by node; units are left
out; the checks `AviaryValues.set_val` makes are modelled elsewhere and left out here.
-/

namespace Verif.PropMission

open Verif (Dict Err)

/-! ## Options of an engine model -/

/-- The containers `_preprocess_inputs` knows
(`aviary/subsystems/propulsion/engine_model.py:158`). -/
inductive Box
  | list | ndarray | tuple
  deriving DecidableEq, Repr

/-- The value of an option: a number, a text, … or a container
(`aviary/subsystems/propulsion/engine_model.py:154-158`). -/
inductive Val (ν : Type)
  | scalar (x : ν)
  | seq (b : Box) (items : List (Val ν))

variable {ν : Type}

/-- `isinstance(val, (list, np.ndarray, tuple))`
(`aviary/subsystems/propulsion/engine_model.py:158-164`). -/
def Val.isSeq : Val ν → Bool
  | .scalar _ => false
  | .seq _ _ => true

mutual
/-- All the numbers in a value, as `np.array` holds them
(`aviary/subsystems/propulsion/engine_model.py:197`). -/
def Val.leaves : Val ν → List ν
  | .scalar x => [x]
  | .seq _ l => leavesL l
/-- The numbers in a list of values (`aviary/subsystems/propulsion/engine_model.py:197`). -/
def leavesL : List (Val ν) → List ν
  | [] => []
  | v :: l => v.leaves ++ leavesL l
end

/-- `np.array(v).item()`: the only number of an array with one number, `ValueError` for any other
size (`aviary/subsystems/propulsion/engine_model.py:197`). -/
def item (v : Val ν) : Except Err (Val ν) :=
  match v.leaves with
  | [x] => .ok (.scalar x)
  | _ => .error .valueError

/-- The first entry of a container (`aviary/subsystems/propulsion/engine_model.py:193-199`). -/
def first (b : Box) (x : Val ν) : Except Err (Val ν) :=
  match b with
  | .ndarray => item x
  | _ => .ok x

/-- What is done with one engine option: the value kept and whether a warning is given.  `iter` says
whether the default in the meta data is a container
(`aviary/subsystems/propulsion/engine_model.py:157-201`). -/
def preOne (iter : Bool) (verb : ℕ) (v : Val ν) : Except Err (Val ν × Bool) :=
  match v with
  | .scalar x => .ok (.scalar x, false)
  | .seq _ [] => .error .indexError
  | .seq b (x :: xs) =>
    if !iter then
      if x.isSeq then .error .userWarning
      else (first b x).map fun w => (w, decide (verb ≥ 1) && !xs.isEmpty)
    else if x.isSeq then (first b x).map fun w => (w, true)
    else .ok (.seq b (x :: xs), false)

/-- The options looked at (`aviary/subsystems/propulsion/engine_model.py:156`). -/
def engineKey (key : String) : Bool :=
  "aircraft:engine:".toList.isPrefixOf key.toList || "aircraft:nacelle".toList.isPrefixOf key.toList

/-- One round of the loop; `md` tells whether the default of a variable is a container
(`aviary/subsystems/propulsion/engine_model.py:154-201`). -/
def preKey (md : String → Option Bool) (verb : ℕ) (kv : String × Val ν) :
    Except Err (String × Val ν × Bool) :=
  if engineKey kv.1 then
    match kv.2 with
    | .scalar x => .ok (kv.1, .scalar x, false)
    | v =>
      match md kv.1 with
      | none => .error .keyError
      | some iter => (preOne iter verb v).map fun r => (kv.1, r.1, r.2)
  else .ok (kv.1, kv.2, false)

/-- The loop of `_preprocess_inputs`: the options afterwards and the names warned about
(`aviary/subsystems/propulsion/engine_model.py:154-205`). -/
def preprocess (md : String → Option Bool) (verb : ℕ) (opts : Dict String (Val ν)) :
    Except Err (Dict String (Val ν) × List String) :=
  (opts.mapM (preKey md verb)).map fun l =>
    (l.map fun r => (r.1, r.2.1), (l.filter fun r => r.2.2).map fun r => r.1)

/-- What the object handed in as options is (`aviary/subsystems/propulsion/engine_model.py:140-152`). -/
inductive OptKind
  | absent | aviaryValues | noMethods
  deriving DecidableEq, Repr

/-- The beginning of `_preprocess_inputs`: the verbosity is read with `self.options.get_val` before the
type is checked, so an object without these methods fails with `AttributeError`
(`aviary/subsystems/propulsion/engine_model.py:140-152`, `:213-229`). -/
def enter : OptKind → Except Err Bool
  | .absent => .ok false
  | .aviaryValues => .ok true
  | .noMethods => .error .attributeError

/-! ## Combining the engine models -/

/-- `d.update(e)` (`aviary/subsystems/propulsion/propulsion_builder.py:132`). -/
def update {κ α : Type} [DecidableEq κ] (d e : Dict κ α) : Dict κ α :=
  e.foldl (fun acc p => Dict.set acc p.1 p.2) d

/-- States, controls, constraints, design variables and initial guesses of all engines
(`aviary/subsystems/propulsion/propulsion_builder.py:123-147`, `:192-203`, `:238-258`). -/
def combine {κ α : Type} [DecidableEq κ] (engines : List (Dict κ α)) : Dict κ α :=
  engines.foldl update []

/-- `needs_mission_solver` (`aviary/subsystems/propulsion/propulsion_builder.py:93-104`). -/
def needsSolver (engines : List Bool) : Bool := engines.foldl (fun acc b => acc || b) false

/-- `d.update(names)` for a list of texts: every text has to be a pair of key and value, that is to have
two characters (`aviary/subsystems/propulsion/propulsion_builder.py:215`). -/
def updateNames (d : Dict Char Char) : List String → Except Err (Dict Char Char)
  | [] => .ok d
  | s :: r =>
    match s.toList with
    | [a, b] => updateNames (Dict.set d a b) r
    | _ => .error .valueError

/-- `get_linked_variables`, `get_mass_names` and `preprocess_inputs`, which all put lists of names into
a dictionary (`aviary/subsystems/propulsion/propulsion_builder.py:206-217`, `:261-278`). -/
def collectNames (engines : List (List String)) : Except Err (Dict Char Char) :=
  engines.foldlM updateNames []

/-- `get_timeseries`: a list with one list per engine
(`aviary/subsystems/propulsion/propulsion_builder.py:281-292`). -/
def timeseries (engines : List (List String)) : List (List String) :=
  engines.foldl (fun acc o => acc ++ [o]) []

/-- `get_pre_mission_bus_variables` (`aviary/subsystems/propulsion/propulsion_builder.py:219-235`). -/
def busVariables {α : Type} (name : String) (engines : List (Dict String α)) : Dict String α :=
  (combine engines).foldl (fun acc p => Dict.set acc (name ++ "." ++ p.1) p.2) []

/-- The entries of a parameter that matter here
(`aviary/subsystems/propulsion/propulsion_builder.py:150-189`). -/
structure Param (ν : Type) where
  val : ν
  shape : Option ℕ
  static : Option Bool
  deriving DecidableEq, Repr

/-- `get_parameters`: engine variables get the number of engine types as shape
(`aviary/subsystems/propulsion/propulsion_builder.py:150-189`). -/
def parameters (isEngineVar : String → Bool) (numTypes : ℕ) (engines : List (Dict String (Param ν))) :
    Dict String (Param ν) :=
  (combine engines).map fun p =>
    (p.1, if isEngineVar p.1 then { p.2 with shape := some numTypes, static := some true } else p.2)

/-! ## Pre-mission -/

/-- The options an engine is built with before the mission
(`aviary/subsystems/propulsion/propulsion_premission.py:48-51`). -/
def preMissionOptions {ο : Type} (empty : ο) (engineOptions : Dict String ο) (name : String) : ο :=
  match engineOptions.get? name with
  | some o => o
  | none => empty

/-- One pass of the muxed variable `v`: an engine with the output gives its value, for the others the
mux keeps what its own output holds
(`aviary/subsystems/propulsion/propulsion_premission.py:166-187`). -/
def muxPass {κ : Type} [DecidableEq κ] (engines : List (Dict κ ν)) (v : κ) (held : ℕ → ν) (i : ℕ) : ν :=
  match (engines[i]?).bind fun d => d.get? v with
  | some x => x
  | none => held i

/-- The connections to the mux, whose number of inputs is not set and therefore 2: an input with a
higher number does not exist (`aviary/subsystems/propulsion/propulsion_premission.py:64-67`,
`:166-187`; `vec_size` of OpenMDAO's `MuxComp`). -/
def muxConnect (numTypes : ℕ) (anyOutput : Bool) : Except Err Unit :=
  if numTypes > 1 ∧ anyOutput ∧ numTypes > 2 then .error .nameError else .ok ()

/-- Inputs of the engines before the mission: entry `i` of a variable of engines or nacelles, anything
else as it is (`aviary/subsystems/propulsion/propulsion_premission.py:144-163`). -/
def preMissionInput (vectorized : Bool) (numTypes i : ℕ) (x : List ν) : List ν :=
  if vectorized && decide (numTypes > 1) then (x[i]?).toList else x

/-- `any(x in key for x in pattern)` (`aviary/subsystems/propulsion/propulsion_premission.py:95`,
`:122-124`). -/
def vectorizedKey (key : String) : Bool :=
  ["engine:", "nacelle:"].any fun p => decide (p.toList <:+: key.toList)

/-! ## Mission -/

/-- Outputs of engines (`aviary/subsystems/propulsion/propulsion_mission.py:330-341`). -/
inductive Var
  | thrust | thrustMax | fuelFlow | electricIn | nox | t4 | shaftPower | shaftPowerMax | rpm | tipSpeed
  | other (s : String)
  deriving DecidableEq, Repr

/-- `max_variables` (`aviary/subsystems/propulsion/utils.py:66-70`). -/
def maxOf : Var → Option Var
  | .thrust => some .thrustMax
  | .shaftPower => some .shaftPowerMax
  | _ => none

/-- `supported_outputs` (`aviary/subsystems/propulsion/propulsion_mission.py:330-341`). -/
def supported : List Var :=
  [.electricIn, .fuelFlow, .nox, .shaftPower, .shaftPowerMax, .t4, .thrust, .thrustMax, .rpm, .tipSpeed]

/-- The variables of the mux (`aviary/subsystems/propulsion/propulsion_mission.py:242-304`). -/
def muxVars : List Var :=
  [.thrust, .thrustMax, .fuelFlow, .electricIn, .nox, .t4, .shaftPower, .shaftPowerMax, .rpm, .tipSpeed]

/-- What an engine sees: throttle, hybrid throttle and its parameters
(`aviary/subsystems/propulsion/propulsion_mission.py:156-184`). -/
structure EngIn (ν : Type) where
  throttle : ν
  hybrid : ν
  param : String → Option ν

/-- An engine model: its name, the two flags and the outputs it computes
(`aviary/subsystems/propulsion/engine_model.py:41-60`). -/
structure Engine (ν : Type) where
  name : String
  computesMax : Bool
  useHybrid : Bool
  params : List String
  outputs : EngIn ν → Dict Var ν

/-- The options an engine is built with for the mission: those of the user are looked up and not used
(`aviary/subsystems/propulsion/propulsion_mission.py:113-140`, `:188-213`). -/
def missionOptions {ο : Type} (empty : ο) (engineOptions : Dict String ο) (name : String) : ο :=
  let _kwargs := preMissionOptions empty engineOptions name
  empty

/-- Inputs of the mission group at one node: the throttles of the engine types and the vectors of the
parameters (`aviary/subsystems/propulsion/propulsion_mission.py:47-110`). -/
structure MissionIn (ν : Type) where
  throttle : ℕ → ν
  hybrid : ℕ → ν
  param : String → ℕ → ν

/-- The parameters after the passthrough component: the union over all engines
(`aviary/subsystems/propulsion/propulsion_mission.py:73-110`, `:533-541`). -/
def passthrough (engines : List (Engine ν)) (x : MissionIn ν) (p : String) (i : ℕ) : Option ν :=
  if engines.any fun e => e.params.contains p then some (x.param p i) else none

/-- The inputs of engine `i`: with one engine type the variables as they are, otherwise entry `i`
(`aviary/subsystems/propulsion/propulsion_mission.py:156-184`, `:227-232`). -/
def engineIn (engines : List (Engine ν)) (x : MissionIn ν) (e : Engine ν) (i : ℕ) : EngIn ν :=
  if engines.length > 1 then
    { throttle := x.throttle i
      hybrid := x.hybrid i
      param := fun p => if e.params.contains p then passthrough engines x p i else none }
  else
    { throttle := x.throttle 0
      hybrid := x.hybrid 0
      param := fun p => if e.params.contains p then some (x.param p 0) else none }

/-- The inputs of the copy for maximum values: full throttle, and full hybrid throttle if the engine uses
one (`aviary/subsystems/propulsion/propulsion_mission.py:57-71`, `:135-150`). -/
def maxIn (one : ν) (e : Engine ν) (u : EngIn ν) : EngIn ν :=
  { u with throttle := one, hybrid := if e.useHybrid then one else u.hybrid }

/-- `output_dict[engine]`: what the engine offers to the mux
(`aviary/subsystems/propulsion/propulsion_mission.py:355-514`). -/
def offered (one : ν) (e : Engine ν) (u : EngIn ν) : Dict Var ν :=
  if e.computesMax then e.outputs u
  else
    let base := (e.outputs u).filter fun p => !([Var.thrustMax, Var.shaftPowerMax].contains p.1)
    let mx := (e.outputs (maxIn one e u)).filterMap fun p => (maxOf p.1).map fun v => (v, p.2)
    update base mx

/-- `output_dict`, keyed with the names of the engines
(`aviary/subsystems/propulsion/propulsion_mission.py:355-514`). -/
def outputDict (one : ν) (engines : List (Engine ν)) (x : MissionIn ν) : Dict String (Dict Var ν) :=
  (engines.zipIdx).foldl (fun d ei => Dict.set d ei.1.name (offered one ei.1 (engineIn engines x ei.1 ei.2)))
    []

/-- The connections to the mux: number of the engine, variable and value
(`aviary/subsystems/propulsion/propulsion_mission.py:516-527`). -/
def connections (one : ν) (engines : List (Engine ν)) (x : MissionIn ν) : List (ℕ × Var × ν) :=
  (outputDict one engines x).zipIdx.flatMap fun di =>
    (di.1.2.filter fun p => supported.contains p.1).map fun p => (di.2, p.1, p.2)

/-- Entry `i` of the muxed variable: what is connected, otherwise the initial value 0
(`aviary/subsystems/propulsion/propulsion_mission.py:242-308`, `:516-527`). -/
def muxed (zero one : ν) (engines : List (Engine ν)) (x : MissionIn ν) (v : Var) (i : ℕ) : ν :=
  match (connections one engines x).find? fun c => decide (c.1 = i ∧ c.2.1 = v) with
  | some c => c.2.2
  | none => zero

/-! ## Totals -/

/-- One row of `np.dot(a, num_engines)`, the array given in row-major order from position `s`
(`aviary/subsystems/propulsion/propulsion_mission.py:650-665`,
`aviary/subsystems/propulsion/propulsion_premission.py:212-217`). -/
def dotFrom [Add ν] [Mul ν] [Zero ν] (x : ℕ → ν) : List ν → ℕ → ν
  | [], _ => 0
  | a :: r, s => x s * a + dotFrom x r (s + 1)

/-- A total at node `n` (`aviary/subsystems/propulsion/propulsion_mission.py:650-665`). -/
def total [Add ν] [Mul ν] [Zero ν] (num : List ν) (x : ℕ → ν) (n : ℕ) : ν := dotFrom x num (n * num.length)

/-- `np.repeat(np.arange(nn), k)` (`aviary/subsystems/propulsion/propulsion_mission.py:611`). -/
def sumRows (nn k : ℕ) : List ℕ := (List.range nn).flatMap fun n => List.replicate k n

/-- `np.arange(nn * k)` (`aviary/subsystems/propulsion/propulsion_mission.py:612`). -/
def sumCols (nn k : ℕ) : List ℕ := List.range (nn * k)

/-- `np.tile(num_engines, nn)` (`aviary/subsystems/propulsion/propulsion_mission.py:609`). -/
def sumVals (nn : ℕ) (num : List ν) : List ν := (List.replicate nn num).flatten

/-- Row `n` of the matrix given by rows, columns and values, applied to a vector
(`aviary/subsystems/propulsion/propulsion_mission.py:614-648`). -/
def cooRow [Add ν] [Mul ν] [Zero ν] (rows cols : List ℕ) (vals : List ν) (x : ℕ → ν) (n : ℕ) : ν :=
  (((rows.zip (cols.zip vals)).filter fun e => decide (e.1 = n)).map fun e => e.2.2 * x e.2.1).foldr
    (· + ·) 0

end Verif.PropMission
