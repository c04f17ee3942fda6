import Verif.Model.Dict
import Mathlib.Data.List.Sort
import Mathlib.Data.String.Basic

/-!
# Overrides, trajectory parameters and model options

Models `aviary/variable_info/functions.py:280-611` and
`aviary/utils/functions.py:132-169` (`promote_aircraft_and_mission_vars`).

OpenMDAO calls (`promotes`, `set_input_defaults`, `traj.add_parameter`, `model_options[...] = ...`) are
modelled by the list of their arguments.
-/

namespace Verif

/-- `name.startswith(stem)`. Part of the model of aviary/utils/functions.py:132-169. -/
def startsWith (stem n : String) : Bool := stem.toList.isPrefixOf n.toList

/-- `name_filter`, aviary/variable_info/functions.py:304-305. -/
def nameFilter (n : String) : Bool :=
  decide ("aircraft:".toList <:+: n.toList) || decide ("mission:".toList <:+: n.toList)

/-! ## `override_aviary_vars`, aviary/variable_info/functions.py:280-395 -/

/-- An entry of `comp_promoted_outputs`: the plain name, or the name renamed to
`EXTERNAL_SUBSYSTEM_OVERRIDE:…` / `AIRCRAFT_DATA_OVERRIDE:…`.
Part of the model of aviary/variable_info/functions.py:280-395. -/
inductive Promo
  | plain (n : String)
  | external (n : String)
  | aircraft (n : String)
  deriving DecidableEq, Repr

/-- Arguments; `inputs` are the keys of `aviary_inputs`, `allInputs` the set built in lines 315-320. -/
structure OverCfg where
  codeOrigin : List String
  external : List String
  inputs : List String
  allInputs : List String

/-- An output of a component: absolute and promoted name. Part of the model of aviary/variable_info/functions.py:280-395. -/
structure OutVar where
  abs : String
  prom : String
  deriving DecidableEq, Repr

/-- Effects so far. Part of the model of aviary/variable_info/functions.py:280-395. -/
structure OverState where
  overridden : List String := []
  extOverridden : List String := []
  defaults : List String := []
  promos : List Promo := []
  deriving DecidableEq, Repr

/-- One pass of the loop over `out_var_names`, lines 338-367. -/
def overStep (c : OverCfg) (s : OverState) (v : OutVar) : OverState :=
  if v.abs ∈ c.codeOrigin then s
  else if v.prom ∈ c.external then
    { s with promos := s.promos ++ [.external v.prom], extOverridden := s.extOverridden ++ [v.prom] }
  else if v.prom ∈ c.inputs then
    { s with
      defaults := if v.prom ∈ c.allInputs then s.defaults ++ [v.prom] else s.defaults
      promos := s.promos ++ [.aircraft v.prom]
      overridden := s.overridden ++ [v.prom] }
  else { s with promos := s.promos ++ [.plain v.prom] }

/-- One component, lines 324-379: its outputs are filtered by absolute name, `comp_promoted_outputs`
starts empty. Returns the running lists and the promotions of the component. -/
def overComp (c : OverCfg) (s : OverState) (outs : List OutVar) : OverState :=
  (outs.filter (fun v => nameFilter v.abs)).foldl (overStep c) { s with promos := [] }

/-- All components; the second part lists the promotions per component.
Part of the model of aviary/variable_info/functions.py:280-395. -/
def overAll (c : OverCfg) : OverState → List (List OutVar) → OverState × List (List Promo)
  | s, [] => (s, [])
  | s, o :: os =>
    let s' := overComp c s o
    let r := overAll c s' os
    (r.1, s'.promos :: r.2)

/-- `override_aviary_vars`. Part of the model of aviary/variable_info/functions.py:280-395. -/
def overrideVars (c : OverCfg) (comps : List (List OutVar)) : OverState × List (List Promo) :=
  overAll c {} comps

/-! ## `promote_aircraft_and_mission_vars`, aviary/utils/functions.py:132-169 -/

/-- A subsystem with its promoted input and output names.
Part of the model of aviary/utils/functions.py:132-169. -/
structure SubSys where
  name : String
  ins : List String
  outs : List String

/-- The stems in loop order, line 156. -/
def stems : List String := ["mission:", "aircraft:", "dynamic:"]

/-- `promote_out` / `promote_in` of one subsystem (the entry for `stem` stands for the glob `stem*`),
lines 156-165. -/
def promoteStems (names : List String) : List String :=
  stems.filter (fun s => names.any (startsWith s))

/-- The returned `external_outputs` and the `group.promotes` calls `(name, outputs, inputs)`.
Part of the model of aviary/utils/functions.py:132-169. -/
def promoteVars : List SubSys → List String × List (String × List String × List String)
  | [] => ([], [])
  | c :: cs =>
    let r := promoteVars cs
    if c.name = "core_subsystems" then r
    else (c.outs ++ r.1, (c.name, promoteStems c.outs, promoteStems c.ins) :: r.2)

/-! ## `setup_trajectory_params`, aviary/variable_info/functions.py:398-475 -/

/-- A `traj.add_parameter` call: external parameters pass their keyword arguments, core parameters a
value and units. `targets` lists the phases of the `targets` dictionary.
Part of the model of aviary/variable_info/functions.py:398-475. -/
inductive AddParam (K V : Type)
  | ext (key : String) (kw : K) (targets : List String)
  | core (key : String) (val : V) (units : Option String) (targets : List String)
  deriving DecidableEq, Repr

/-- The key of a call. Part of the model of aviary/variable_info/functions.py:398-475. -/
def AddParam.key {K V : Type} : AddParam K V → String
  | .ext k _ _ => k
  | .core k _ _ _ => k

/-- The phases targeted by a call. Part of the model of aviary/variable_info/functions.py:398-475. -/
def AddParam.targets {K V : Type} : AddParam K V → List String
  | .ext _ _ t => t
  | .core _ _ _ t => t

/-- aviary/variable_info/functions.py:421-424: one phase. -/
def collectPhase {K : Type} (phase : String) : Dict String K → Dict String (List String) → Dict String (List String)
  | [], d => d
  | (k, _) :: ps, d => collectPhase phase ps (d.set k ((d.get? k).getD [] ++ [phase]))

/-- Steps 1 and 2, lines 417-424: `parameters_with_phases`. -/
def collectParams {K : Type} (ext : Dict String (Dict String K)) : Dict String (List String) :=
  ext.foldl (fun d p => collectPhase p.1 p.2 d) []

/-- Step 3, lines 428-435. The loop variable is called `phases` like the parameter of the function, so
the value left by the last pass is returned as well. `KeyError` cannot occur but is modelled. -/
def addExternal {K V : Type} (ext : Dict String (Dict String K)) :
    Dict String (List String) → List String → Except Err (List (AddParam K V) × List String)
  | [], phases => .ok ([], phases)
  | (key, ph) :: rest, _ => do
    match ph with
    | [] => .error .indexError
    | p0 :: _ =>
      match (ext.get? p0).bind (Dict.get? · key) with
      | none => .error .keyError
      | some kw =>
        let r ← addExternal ext rest ph
        .ok (.ext key kw ph :: r.1, r.2)

/-- The metadata fields used. Part of the model of aviary/variable_info/functions.py:398-475. -/
structure PMeta where
  option : Bool
  units : Option String

/-- The loop over the sorted core mission inputs, lines 441-473. `valOf` is the value chosen in lines
448-457 (default, or the aircraft value). -/
def addCore {K V : Type} (metas : Dict String PMeta) (valOf : String → V) (done phases : List String) :
    List String → Except Err (List (AddParam K V))
  | [] => .ok []
  | key :: ks =>
    if key ∈ done then addCore metas valOf done phases ks
    else match metas.get? key with
      | none => .error .keyError
      | some m => do
        let r ← addCore metas valOf done phases ks
        if m.option then .ok r
        else if ':' ∉ key.toList then .ok r
        else .ok (.core key (valOf key) m.units phases :: r)

/-- `setup_trajectory_params`: the `add_parameter` calls in order. `sorted` is Python's `sorted`.
Part of the model of aviary/variable_info/functions.py:398-475. -/
def setupParams {K V : Type} (metas : Dict String PMeta) (valOf : String → V) (phases : List String)
    (ext : Dict String (Dict String K)) (vars : List String) : Except Err (List (AddParam K V)) := do
  let (calls, phases') ← addExternal ext (collectParams ext) phases
  let core ← addCore metas valOf (calls.map AddParam.key) phases'
    (vars.insertionSort (fun a b => a ≤ b))
  .ok (calls ++ core)

/-! ## `extract_options`, aviary/variable_info/functions.py:496-531 -/

/-- An option value: plain, or `(value, units)`. Part of the model of aviary/variable_info/functions.py:496-531. -/
inductive OptVal (V : Type)
  | plain (v : V)
  | withUnits (v : V) (u : String)
  deriving DecidableEq, Repr

/-- `extract_options(aviary_inputs, metadata)`. Part of the model of aviary/variable_info/functions.py:496-531. -/
def extractOptions {V : Type} (inputs : Dict String (V × String)) :
    Dict String PMeta → Dict String (OptVal V) → Dict String (OptVal V)
  | [], o => o
  | (k, m) :: ms, o =>
    match inputs.get? k with
    | none => extractOptions inputs ms o
    | some (v, u) =>
      if ¬ m.option then extractOptions inputs ms o
      else if m.units = some "unitless" ∨ m.units = none then
        extractOptions inputs ms (o.set k (.plain v))
      else extractOptions inputs ms (o.set k (.withUnits v u))

/-! ## `setup_model_options`, aviary/variable_info/functions.py:534-611 -/

/-- Engine options of engine number `idx`: `get_item(key)[0][idx]` for every listed option that is set,
lines 588-608. `IndexError` if a value has too few entries. Units are left out. -/
def engineOpts {V : Type} (inputs : Dict String (List V)) (idx : ℕ) :
    List String → Except Err (Dict String V)
  | [] => .ok []
  | k :: ks => do
    let r ← engineOpts inputs idx ks
    match inputs.get? k with
    | none => .ok r
    | some vs => match vs[idx]? with
      | none => .error .indexError
      | some v => .ok ((k, v) :: r)

/-- The engine entries of `prob.model_options`, lines 583-611: pattern `*propulsion.{name}*`, represented
by the engine name, to its options. The same name twice overwrites. -/
def modelOptions {V : Type} (inputs : Dict String (List V)) (keys : List String) :
    List String → ℕ → Dict String (Dict String V) → Except Err (Dict String (Dict String V))
  | [], _, d => .ok d
  | n :: ns, idx, d => do
    let o ← engineOpts inputs idx keys
    modelOptions inputs keys ns (idx + 1) (d.set n o)

/-- What a system below `…propulsion.{name}` gets for option `k`: OpenMDAO applies every matching pattern
in the order of the dictionary, so the last match that has the option wins. The pattern
`*propulsion.{n}*` matches when `n` is a prefix of `name`.
Part of the model of aviary/variable_info/functions.py:534-611. -/
def optionSeen {V : Type} (d : Dict String (Dict String V)) (name k : String) : Option V :=
  d.foldl (fun acc p => if startsWith p.1 name then ((p.2.get? k).or acc) else acc) none

end Verif
