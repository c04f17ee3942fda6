import Mathlib.Data.Rat.Defs
import Mathlib.Algebra.Order.Ring.Rat
import Mathlib.Data.List.Basic
import Mathlib.Data.List.Nodup
import Mathlib.Data.Rat.Floor
import Verif.Model.CrewPayload
import Verif.Model.Phases

/-!
# Objectives and payload-range analysis

aviary/core/aviary_problem.py: `add_objective` 664-786, `add_composite_objective` 854-1018,
`add_composite_objective_adv` 1020-1093, the setup of `run_off_design_mission` 1446-1640 and `run_payload_range`
1657-1873. Numbers are rationals.
-/

namespace Verif.Objective

/-! ## Single objective -/

/-- aviary/variable_info/enums.py:201-231 -/
inductive ProblemType | sizing | minFuel | maxRange | multiMission
deriving DecidableEq

/-- Exceptions. Part of the model of aviary/core/aviary_problem.py:735-786. -/
inductive Err
  | valueError | typeError | keyError | userWarning | zeroDivision | unboundLocal | syntaxError
  /-- refused by the OpenMDAO model (unknown names, connection of an input to an output, double promotion) -/
  | modelError
deriving DecidableEq

/-- The quantity minimised. Part of the model of aviary/core/aviary_problem.py:735-786. -/
inductive Quantity
  /-- mass at the end of the last main phase -/
  | finalMass
  /-- time at the end of the last main phase -/
  | finalTime
  /-- `obj_comp.obj` -/
  | hybrid
  /-- `Mission.FUEL_MASS` -/
  | fuelMass
  /-- `Mission.Objectives.FUEL` -/
  | fuelObjective
  /-- `Mission.Objectives.RANGE` -/
  | rangeObjective
deriving DecidableEq

/-- aviary/core/aviary_problem.py:728-733 with the default of `get`. -/
def defaultRef (t : String) : ℚ :=
  if t = "mass" then 50000 else if t = "hybrid_objective" then 50000
  else if t = "fuel_burned" then 10000 else if t = "fuel" then 10000 else 1

/-- aviary/core/aviary_problem.py:735-786: the quantity and the reference value handed to the optimizer (`none`: no value). The
optimizer minimises quantity/ref. -/
def addObjective (problem : ProblemType) (type : Option String) (ref : Option ℚ) : Except Err (Quantity × Option ℚ) :=
  match type with
  | some t =>
    let r := ref.getD (defaultRef t)
    if t = "mass" then .ok (.finalMass, some r)
    else if t = "time" then .ok (.finalTime, some r)
    else if t = "hybrid_objective" then .ok (.hybrid, none)
    else if t = "fuel_burned" then .ok (.fuelMass, some r)
    else if t = "fuel" then .ok (.fuelObjective, some r)
    else .error .valueError
  | none =>
    let r := ref.getD 1
    match problem with
    | .sizing => .ok (.fuelObjective, some r)
    | .minFuel => .ok (.fuelObjective, some r)
    | .maxRange => .ok (.rangeObjective, some r)
    | .multiMission => .error .valueError

/-! ## Composite objective -/

/-- One argument of `add_composite_objective`. Part of the model of aviary/core/aviary_problem.py:898-957. -/
inductive Arg
  | text (s : String)
  /-- `(str, str)` -/
  | pairText (a b : String)
  /-- `(str, number)` -/
  | pairNum (a : String) (w : ℚ)
  /-- any other 2-tuple -/
  | pairOther
  | triple (model output : String) (w : ℚ)
  /-- anything else -/
  | other

/-- aviary/core/aviary_problem.py:898-957: one argument as model, output and weight. `models` are the keys of
`aviary_groups_dict`. -/
def parseArg (models : List String) (problem : ProblemType) : Arg → Except Err (String × String × ℚ)
  | .triple m o w => if m ∈ models then .ok (m, o, w) else .error .valueError
  | .pairText a b => if a ∈ models then .ok (a, b, 1) else .error .valueError
  | .pairNum a w => if a ∈ models then .error .valueError else .ok ("model", a, w)
  | .pairOther => .error .valueError
  | .text s => if s ∈ models then .error .valueError else .ok ("model", s, 1)
  | .other => match problem with
    | .sizing => .ok ("model", "mission:objectives:fuel", 1)
    | .minFuel => .ok ("model", "mission:objectives:fuel", 1)
    | .maxRange => .ok ("model", "mission:objectives:range", 1)
    | .multiMission => .error .valueError

/-- All arguments. Part of the model of aviary/core/aviary_problem.py:854-1018. -/
def parseArgs (models : List String) (problem : ProblemType) : List Arg → Except Err (List (String × String × ℚ))
  | [] => .ok []
  | a :: as => match parseArg models problem a with
    | .error e => .error e
    | .ok x => match parseArgs models problem as with
      | .error e => .error e
      | .ok xs => .ok (x :: xs)

/-- aviary/core/aviary_problem.py:975-993: names of the outputs, `mission:…` are the values of the constants in aviary/variable_info/variables.py. -/
def cleanName (o : String) : String :=
  if o = "fuel_burned" then "mission:fuel_mass" else if o = "fuel" then "mission:objectives:fuel"
  else if o = "mass" then "mission:final_mass" else if o = "time" then "mission:final_time"
  else if o = "range" then "mission:range" else o

/-- aviary/core/aviary_problem.py:964-991: the default reference, for a single argument without `ref`. -/
def compositeRef (o : String) : Option ℚ :=
  if o = "fuel_burned" then some 10000 else if o = "fuel" then some 10000 else if o = "mass" then some (-50000) else none

/-- `output.replace(':', '_')`. Part of the model of aviary/core/aviary_problem.py:996-1009. -/
def safe (o : String) : String := String.ofList (o.toList.map fun c => if c = ':' then '_' else c)

/-- One term of the sum: name of the input, source of the connection, factor.
Part of the model of aviary/core/aviary_problem.py:996-1009. -/
structure Term where
  input : String
  source : String
  factor : ℚ
deriving DecidableEq

/-- aviary/core/aviary_problem.py:996-1009: the terms of the expression; a total weight of zero is a division by zero when the
expression is evaluated, and an empty expression a syntax error. -/
def terms (objs : List (String × String × ℚ)) : List Term :=
  let total := (objs.map (·.2.2)).sum
  objs.map fun x => ⟨x.1 ++ "_" ++ safe x.2.1, x.1 ++ "." ++ x.2.1, x.2.2 / total⟩

/-- aviary/core/aviary_problem.py:854-1018. Two terms with the same input are connected twice, which OpenMDAO refuses. -/
def addComposite (models : List String) (problem : ProblemType) (args : List Arg) (ref : Option ℚ) :
    Except Err (List Term × Option ℚ) :=
  match parseArgs models problem args with
  | .error e => .error e
  | .ok objs =>
    let ref' := match ref, objs with
      | none, [x] => compositeRef x.2.1
      | r, _ => r
    let ts : List Term := terms (objs.map fun x => (x.1, cleanName x.2.1, x.2.2))
    if objs = [] then .error .syntaxError
    else if (objs.map (·.2.2)).sum = 0 then .error .zeroDivision
    else if ¬(ts.map Term.input).Nodup then .error .modelError
    else .ok (ts, ref')

/-- aviary/core/aviary_problem.py:1072-1083: factors of the sum over missions and outputs. -/
def advFactors (missions outputs : List String) (mw ow : List ℚ) : List (String × String × ℚ) :=
  let ow' := ow.map fun w => w / ow.sum
  let mw' := mw.map fun w => w / mw.sum
  (missions.zip mw').flatMap fun m => (outputs.zip ow').map fun o => (m.1, o.1, o.2 * m.2)

/-- aviary/core/aviary_problem.py:1062-1066: weights that are not given are one. -/
def advWeights (names : List String) (w : Option (List ℚ)) : List ℚ := w.getD (names.map fun _ => 1)

/-- aviary/core/aviary_problem.py:1078-1080, 1091-1092: the connections made, as (source, target). The lists hold the input of the
composite function first, and it is the first that is handed to `connect` as the source. -/
def advConnections (missions outputs : List String) : List (String × String) :=
  missions.flatMap fun m => outputs.map fun o => ("composite_function." ++ m ++ "_" ++ o, m ++ "." ++ o)

/-! ## Phases and values of the objectives -/

/-- aviary/core/aviary_problem.py:739: the phase whose end is used by the objectives `mass` and `time`. -/
def objectivePhase (phases : List (String × PhaseTag)) : Except Verif.Err (Option String) :=
  match separatePhases phases with
  | .error e => .error e
  | .ok (m, _) => .ok m.getLast?

/-- aviary/core/aviary_problem.py:1958, 1968: the phase whose end is used by the hybrid objective. -/
def hybridPhase (phases : List (String × PhaseTag)) : Option String := (phases.map (·.1)).getLast?

/-- aviary/core/aviary_problem.py:1962: the hybrid objective (lbm, h). -/
def hybridValue (takeoffMass finalMass finalTime : ℚ) : ℚ := finalMass / takeoffMass + finalTime / 5

/-- aviary/core/aviary_problem.py:699: the fuel objective (lbm, s). -/
def fuelValue (fuel ascent : ℚ) : ℚ := fuel / 10000 + ascent / 30

/-- aviary/core/aviary_problem.py:716: the range objective (NM, s). -/
def rangeValue (range ascent : ℚ) : ℚ := -range / 1000 + ascent / 30

/-- What the optimizer minimises: OpenMDAO divides by the reference value, if there is one.
Part of the model of aviary/core/aviary_problem.py:716. -/
def scaled (v : ℚ) (ref : Option ℚ) : ℚ := match ref with
  | none => v
  | some r => v / r

/-! ## Off-design missions -/

/-- The arguments of `run_off_design_mission` about payload (aviary/core/aviary_problem.py:1357-1376). -/
structure Payload where
  first : Option ℤ
  business : Option ℤ
  economy : Option ℤ
  pax : Option ℤ
  wing : Option ℚ
  misc : Option ℚ
  cargo : Option ℚ
deriving DecidableEq

/-- Truth of an optional number. Part of the model of aviary/core/aviary_problem.py:1484-1491. -/
def someCount : Option ℤ → Bool
  | none => false
  | some n => decide (n ≠ 0)

/-- aviary/core/aviary_problem.py:1484-1491: the number of passengers that is set. -/
def offDesignPax (m : MassMethod) (p : Payload) : Option ℤ :=
  if m = .flops ∧ p.pax = none ∧ ¬(someCount p.economy || someCount p.business || someCount p.first) then
    some (p.economy.getD 0 + p.business.getD 0 + p.first.getD 0)
  else p.pax

/-- aviary/core/aviary_problem.py:1494-1517: the passenger options of the off-design mission, from those of the sizing mission. -/
def offDesignMission (m : MassMethod) (o : Pax) (p : Payload) : Pax :=
  { first := if m = .flops then p.first.orElse fun _ => o.first else o.first
    business := if m = .flops then p.business.orElse fun _ => o.business else o.business
    econ := if m = .flops then p.economy.orElse fun _ => o.econ else o.econ
    total := (offDesignPax m p).orElse fun _ => o.total }

/-- aviary/core/aviary_problem.py:1494-1517, 1567: the options with the new passenger counts and cargo mass, then preprocessed
(`check_and_preprocess_inputs`, model in `Verif.crewPayload`). -/
def offDesignOpts (m : MassMethod) (o : CrewOpts) (p : Payload) : Except Verif.Err CrewOpts :=
  crewPayload (some m) false
    { o with mission := offDesignMission m o.mission p, cargo := p.cargo.orElse fun _ => o.cargo }

/-- aviary/core/aviary_problem.py:1500-1503: the new value of a cargo option of FLOPS. -/
def offDesignCargo (m : MassMethod) (given old : Option ℚ) : Option ℚ :=
  if m = .flops then given.orElse fun _ => old else old

/-- The variable floated by `fill_cargo`. Part of the model of aviary/core/aviary_problem.py:1586-1617. -/
inductive CargoVar | cargoMass | miscCargo | wingCargo
deriving DecidableEq

/-- aviary/core/aviary_problem.py:1586-1617: variable, upper bound and reference for `fill_cargo`; `None * tol` is a `TypeError`.
`gross` is the design gross mass. -/
def fillCargo (m : MassMethod) (p : Payload) (gross : ℚ) : Except Err (CargoVar × ℚ × ℚ) :=
  match m with
  | .gasp => match p.cargo with
    | none => .error .typeError
    | some v => .ok (.cargoMass, v * (105 / 100), v)
  | .flops =>
    if p.misc.getD 0 = 0 then
      if p.wing.getD 0 = 0 then .ok (.miscCargo, gross * (5 / 100), gross)
      else .ok (.wingCargo, p.wing.getD 0 * (11 / 10), p.wing.getD 0)
    else .ok (.miscCargo, p.misc.getD 0 * (11 / 10), p.misc.getD 0)

/-- aviary/core/aviary_problem.py:1449-1457: flags that are refused. -/
def offDesignCheck (problem : ProblemType) (fillCargo fillFuel : Bool) : Except Err Unit :=
  if problem = .sizing then .error .userWarning
  else if fillCargo && fillFuel then .error .userWarning
  else .ok ()

/-- aviary/core/aviary_problem.py:1459-1467: the number in the name of the off-design problem; `used n` tells whether the directory
of the `n`-th candidate exists. The loop of the code has no bound; at most `fuel` candidates are tried here. -/
def firstFree (used : ℕ → Bool) : ℕ → ℕ → Option ℕ
  | 0, _ => none
  | fuel + 1, n => if used n then firstFree used fuel (n + 1) else some n

/-- aviary/core/aviary_problem.py:1520-1565: target range (NM) and gross mass (lbm) of the off-design mission, from the arguments
and the design range and gross mass. The gross mass of a mission of minimal fuel is only a guess. -/
def offDesignTargets (problem : ProblemType) (range gross : Option ℚ) (designRange designGross : ℚ) :
    Option ℚ × Option ℚ :=
  match problem with
  | .minFuel => (some (range.getD designRange), some (gross.getD designGross * (9 / 10)))
  | .maxRange => (none, some (gross.getD designGross))
  | _ => (none, none)

/-! ## Payload-range analysis -/

/-- What the analysis reads from the sized aircraft (lbm and NM). The class counts are the design counts, the cargo
values the options of the sizing mission; `none` is a missing option.
Part of the model of aviary/core/aviary_problem.py:1717-1718. -/
structure Sized where
  payload : ℚ
  range : ℚ
  gross : ℚ
  operating : ℚ
  capacity : ℚ
  unusable : ℚ
  fuel : ℚ
  first : Option ℕ
  business : Option ℕ
  economy : Option ℕ
  wing : Option ℚ
  misc : Option ℚ
  massMethod : MassMethod
  /-- `time_duration_bounds` of the phase `cruise`, `none` without such a phase or option -/
  cruiseBounds : Option (ℚ × Option ℚ)
  /-- whether the sizing run converged -/
  success : Bool
  problem : ProblemType
deriving DecidableEq

/-- An off-design mission asked for: payload arguments, gross mass if given, and the flags.
Part of the model of aviary/core/aviary_problem.py:1732-1771. -/
structure Mission where
  payload : Payload
  gross : Option ℚ
  fillCargo : Bool
  fillFuel : Bool
deriving DecidableEq

/-- The results of an off-design mission. Part of the model of aviary/core/aviary_problem.py:1679-1866. -/
structure Result where
  payload : ℚ
  range : ℚ
  fuel : ℚ
  success : Bool
deriving DecidableEq

/-- aviary/core/aviary_problem.py:1717-1718 -/
def maxUsable (s : Sized) : ℚ := s.capacity - s.unusable

/-- aviary/core/aviary_problem.py:1723: whether the aircraft with full tanks still has room for payload. -/
def hasPoint3 (s : Sized) : Bool := decide (s.operating + maxUsable s < s.gross)

/-- aviary/core/aviary_problem.py:1728-1729 -/
def payloadFrac (s : Sized) : ℚ := (s.gross - s.operating - maxUsable s) / s.payload

/-- `int(n * frac)`: truncation towards zero. Part of the model of aviary/core/aviary_problem.py:1732-1771. -/
def scaleCount (n : ℕ) (f : ℚ) : ℤ :=
  if 0 ≤ (n : ℚ) * f then ⌊(n : ℚ) * f⌋ else -⌊-((n : ℚ) * f)⌋

/-- aviary/core/aviary_problem.py:1732-1771: the mission with full tanks and the payload that is left. -/
def mission3 (s : Sized) : Except Err Mission :=
  if s.payload = 0 then .error .zeroDivision
  else match s.wing, s.misc, s.first, s.business, s.economy with
    | some w, some m, some f, some b, some e => .ok
      { payload :=
          { first := some (scaleCount f (payloadFrac s))
            business := some (scaleCount b (payloadFrac s))
            economy := some (scaleCount e (payloadFrac s))
            pax := none
            wing := some (w * payloadFrac s)
            misc := some (m * payloadFrac s)
            cargo := none }
        gross := none
        fillCargo := true
        fillFuel := false }
    | _, _, _, _, _ => .error .keyError

/-- aviary/core/aviary_problem.py:1784-1812: the ferry mission. -/
def mission4 (s : Sized) : Mission where
  payload :=
    { first := some 0, business := some 0, economy := some 0, pax := none, wing := some 0, misc := some 0
      cargo := if s.massMethod = .gasp then some 0 else none }
  gross := some (s.operating + (if hasPoint3 s then maxUsable s else s.gross - s.operating))
  fillCargo := false
  fillFuel := true

/-- The table written: payload, fuel and range of the four points.
Part of the model of aviary/core/aviary_problem.py:1679-1866. -/
structure Table where
  payload : List ℚ
  fuel : List ℚ
  range : List ℚ
deriving DecidableEq

/-- Outcome of the analysis. Part of the model of aviary/core/aviary_problem.py:1679-1866. -/
inductive Outcome
  /-- `()` after a warning -/
  | refused
  /-- `None` after a warning -/
  | notConverged
  | table (t : Table)
deriving DecidableEq

/-- `run_payload_range` for the energy equations of motion, aviary/core/aviary_problem.py:1679-1866, with the bounds of the cruise
phase of the sized problem afterwards. `fly` is the off-design run. `phase_info` is a shallow copy, so the change of the
cruise bounds (1700-1707) is seen by the sized problem. -/
def payloadRange (fly : Mission → Result) (verbosity : ℕ) (s : Sized) :
    Except Err (Outcome × Option (ℚ × Option ℚ)) :=
  if !s.success && decide (verbosity > 0) then .ok (.refused, s.cruiseBounds)
  else if decide (s.problem = .multiMission) && decide (verbosity > 0) then .ok (.refused, s.cruiseBounds)
  else match s.cruiseBounds with
    | none => .error .keyError
    | some (_, none) => .error .typeError
    | some (lo, some hi) =>
      let bounds := some (lo, some (2 * hi))
      if hasPoint3 s then
        match mission3 s with
        | .error e => .error e
        | .ok m3 => match fillCargo s.massMethod m3.payload s.gross with
          | .error e => .error e
          | .ok _ =>
            let r3 := fly m3
            let r4 := fly (mission4 s)
            if r4.success && r3.success then
              .ok (.table ⟨[s.payload, s.payload, r3.payload, r4.payload], [0, s.fuel, r3.fuel, r4.fuel],
                [0, s.range, r3.range, r4.range]⟩, bounds)
            else .ok (.notConverged, bounds)
      else
        -- `fuel_3` has no value on this path
        if (fly (mission4 s)).success then .error .unboundLocal else .ok (.notConverged, bounds)

end Verif.Objective
