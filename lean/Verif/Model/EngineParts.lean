import Verif.Model.PropMission
import Mathlib.Data.Rat.Defs

/-!
# Engines composed of parts, and the battery

Model of the builder of a turboprop, made of a model of shaft power, a gearbox and a propeller
(`aviary/subsystems/propulsion/turboprop_model.py:18-594`), and of the builder of a battery
(`aviary/subsystems/energy/battery_builder.py`).  A part is given by the answers of its builder.
-/

namespace Verif.EngineParts

open PropMission (update)

/-- The answers of the builder of a part (`aviary/subsystems/subsystem_builder.py:42-560`). -/
structure Part (α : Type) where
  name : String
  /-- `isinstance(…, EngineDeck)` -/
  isDeck : Bool := false
  solver : Bool := true
  pre : Option α := none
  post : Option α := none
  states : Dict String α := []
  controls : Dict String α := []
  constraints : Dict String α := []
  params : Dict String α := []
  guesses : Dict String α := []
  designVars : Dict String α := []
  preBus : Dict String α := []
  /-- by phase -/
  postBus : Dict String (Dict String α) := []
  linked : List String := []
  massNames : List String := []
  timeseries : List String := []
  preprocess : Dict String α → Dict String α := id

variable {α : Type}

/-- The three attributes (`aviary/subsystems/propulsion/turboprop_model.py:70-72`). -/
structure Engine (α : Type) where
  shaft : Option (Part α)
  gearbox : Option (Part α)
  propeller : Option (Part α)

/-- `__init__`: a part that is not given is built by default
(`aviary/subsystems/propulsion/turboprop_model.py:59-97`). -/
def init (deck gear prop : Part α) (shaft gearbox propeller : Option (Part α)) : Engine α :=
  ⟨some (shaft.getD deck), some (gearbox.getD gear), some (propeller.getD prop)⟩

/-- `if part is not None: d.update(part.get_…())`
(`aviary/subsystems/propulsion/turboprop_model.py:291-297`). -/
def updPart {β : Type} (get : Part α → Dict String β) (d : Dict String β) : Option (Part α) → Dict String β
  | none => d
  | some p => update d (get p)

/-- `get_states`, `get_constraints`, `get_parameters`, `get_pre_mission_bus_variables`, `get_design_vars`,
`get_initial_guesses` and `get_post_mission_bus_variables`: what the base class answers, which is empty, and then the parts
(`aviary/subsystems/propulsion/turboprop_model.py:284-315`, `:357-421`, `:456-523`, `:563-579`). -/
def collect {β : Type} (get : Part α → Dict String β) (e : Engine α) : Dict String β :=
  updPart get (updPart get (updPart get [] e.shaft) e.gearbox) e.propeller

/-- The name of the rotational speed (`aviary/subsystems/propulsion/turboprop_model.py:350-353`). -/
def rpm : String := "rotations_per_minute"

/-- `get_controls` (`aviary/subsystems/propulsion/turboprop_model.py:317-355`). -/
def controls (e : Engine α) : Dict String α :=
  let c := collect Part.controls e
  match c.get? rpm with
  | none => c
  | some v => (c.erase rpm).set (rpm ++ "_control") v

/-- `if part is not None: l += part.get_…()` (`aviary/subsystems/propulsion/turboprop_model.py:425-430`). -/
def addPart (get : Part α → List String) (l : List String) : Option (Part α) → List String
  | none => l
  | some p => l ++ get p

/-- `get_linked_variables`, `get_mass_names`, `get_timeseries`
(`aviary/subsystems/propulsion/turboprop_model.py:423-444`, `:525-533`, `:545-561`). -/
def names (get : Part α → List String) (e : Engine α) : List String :=
  addPart get (addPart get (addPart get [] e.shaft) e.gearbox) e.propeller

/-- `needs_mission_solver` (`aviary/subsystems/propulsion/turboprop_model.py:98-124`). -/
def needsSolver (e : Engine α) : Bool :=
  let f : Option (Part α) → Bool := fun o => match o with | none => false | some p => p.solver
  f e.shaft || f e.gearbox || f e.propeller

/-- `get_bus_variables`: the method of the base class raises
(`aviary/subsystems/propulsion/turboprop_model.py:446-454`, `aviary/subsystems/subsystem_builder.py:252-259`). -/
def busVariables (_e : Engine α) : Except Err (Dict String α) := .error .runtimeError

/-- `NamedValues.update` with a list of names: unless the list is empty, taking a name apart fails
(`aviary/utils/named_values.py:226-242`). -/
def updateByNames (d : Dict String α) : List String → Except Err (Dict String α)
  | [] => .ok d
  | _ :: _ => .error .valueError

/-- `preprocess_inputs`: the gearbox and the propeller are asked for names of masses
(`aviary/subsystems/propulsion/turboprop_model.py:535-543`). -/
def preprocess (e : Engine α) (inputs : Dict String α) : Except Err (Dict String α) := do
  let d := match e.shaft with | none => inputs | some p => update inputs (p.preprocess inputs)
  let d ← match e.gearbox with | none => pure d | some p => updateByNames d p.massNames
  match e.propeller with | none => pure d | some p => updateByNames d p.massNames

/-- `group.add_subsystem(name, system)`, which refuses a name twice; nothing is added for `None`
(`aviary/subsystems/propulsion/turboprop_model.py:140-143`). -/
def addSystem (g : List (String × α)) (name : String) : Option α → Except Err (List (String × α))
  | none => .ok g
  | some s => if g.any (fun q => q.1 == name) then .error .runtimeError else .ok (g ++ [(name, s)])

/-- A part that has to be there (`aviary/subsystems/propulsion/turboprop_model.py:128-131`). -/
def need (o : Option (Part α)) : Except Err (Part α) :=
  match o with
  | none => .error .attributeError
  | some p => .ok p

/-- `build_pre_mission` (`aviary/subsystems/propulsion/turboprop_model.py:128-165`). -/
def buildPre (e : Engine α) : Except Err (List (String × α)) := do
  let s ← need e.shaft
  let g ← if s.isDeck then pure [] else addSystem [] s.name s.pre
  let b ← need e.gearbox
  let g ← addSystem g b.name b.pre
  let p ← need e.propeller
  addSystem g p.name p.pre

/-- `build_post_mission` (`aviary/subsystems/propulsion/turboprop_model.py:231-282`). -/
def buildPost (e : Engine α) : Except Err (List (String × α)) := do
  let s ← need e.shaft
  let g ← addSystem [] s.name s.post
  let b ← need e.gearbox
  let g ← addSystem g b.name b.post
  let p ← need e.propeller
  addSystem g p.name p.post

/-- The names of masses of the default parts: gearbox and propeller
(`aviary/subsystems/propulsion/gearbox/gearbox_builder.py:105-106`,
`aviary/subsystems/propulsion/propeller/propeller_builder.py:143-144`). -/
def gearMassNames : List String := ["aircraft:engine:gearbox:mass"]

/-! ## Battery -/

/-- Capacity of the battery (`aviary/subsystems/energy/battery_sizing.py:38-48`). -/
def capacity (packMass density : ℚ) : ℚ := packMass * density

/-- State of charge (`aviary/subsystems/energy/battery_builder.py:49-56`).  Simplified: where numpy divides
by zero and gives no finite number, the model gives an error. -/
def soc (capacity used efficiency : ℚ) : Except Err ℚ :=
  if efficiency = 0 ∨ capacity = 0 then .error .zeroDivision
  else .ok ((capacity - used / efficiency) / capacity)

/-- The constraint at the end of a phase (`aviary/subsystems/energy/battery_builder.py:101-111`). -/
def charged (s : ℚ) : Bool := decide (s ≥ 1 / 5)

end Verif.EngineParts
