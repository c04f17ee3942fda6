import Mathlib.Data.Real.Basic
import Verif.Model.Phases
import Verif.Model.Propulsion

/-!
# Connections between the parts of a mission

aviary/core/aviary_group.py (bus variables, masses of external subsystems, design variables, post mission constraints)
and aviary/subsystems/energy/energy_builder.py.
-/

namespace Verif.Wiring

open Verif

/-! ## Bus variables from the mission to the post mission -/

/-- One entry of a post mission bus dictionary: `post_mission_name` as a list and the one entry of `src_indices`.
Part of the model of aviary/subsystems/energy/energy_builder.py:67-96. -/
structure BusEntry where
  names : List String
  idx : Int

/-- `PostBus`: part of the model of aviary/subsystems/energy/energy_builder.py:67-96. -/
abbrev PostBus := Dict String (Dict String BusEntry)

/-- `CoreEnergyBuilder.get_post_mission_bus_variables`, aviary/subsystems/energy/energy_builder.py:67-96; `main_phases[-1]` raises `IndexError`. -/
def energyBus (name : String) (margin : ℚ) (main reserve : List String) : Except Err PostBus :=
  match main.getLast? with
  | none => .error .indexError
  | some lm =>
    let names := [name ++ ".fuel_burned.mass_final"] ++
      (if margin ≠ 0 then [name ++ ".reserve_fuel_frac.final_mass"] else [])
    let bus : PostBus := Dict.set [] lm [("mass", ⟨names, -1⟩)]
    match reserve.head?, reserve.getLast? with
    | some r0, some r1 =>
      .ok (Dict.set (Dict.set bus r0 [("mass", ⟨[name ++ ".reserve_fuel_burned.mass_initial"], 0⟩)]) r1
        [("mass", ⟨[name ++ ".reserve_fuel_burned.mass_final"], -1⟩)])
    | _, _ => .ok bus

/-- `name.rpartition('.')[-1]` and `name.split('.')[-1]`: the text after the last point.
Part of the model of aviary/core/aviary_group.py:1269-1286. -/
def lastPart (s : String) : String := String.ofList (s.toList.reverse.takeWhile (fun c => c ≠ '.')).reverse

/-- A connection from a variable of a phase to an input.
Part of the model of aviary/core/aviary_group.py:1269-1286. -/
structure Conn where
  phase : String
  var : String
  target : String
  idx : Int
  deriving DecidableEq

/-- `_connect_mission_bus_variables` for one subsystem, aviary/core/aviary_group.py:1269-1286. -/
def connectBus (b : PostBus) : List Conn :=
  b.flatMap fun p => p.2.flatMap fun v => v.2.names.map fun t => ⟨p.1, lastPart v.1, t, v.2.idx⟩

/-- An entry of the history of a variable: index -1 is the last node, other indices count from the start.
Part of the model of aviary/core/aviary_group.py:1269-1286. -/
def pick (h : List ℝ) (i : Int) : Option ℝ := if i = -1 then h.getLast? else if 0 ≤ i then h[i.toNat]? else none

/-- The value of an input: that of the variable connected to it, otherwise its default. OpenMDAO (trusted) allows one
connection for each input; `hist p v` is the history of `v` in phase `p`.
Part of the model of aviary/core/aviary_group.py:1269-1286. -/
noncomputable def input (cs : List Conn) (hist : String → String → List ℝ) (dflt : ℝ) (target : String) : ℝ :=
  match cs.find? (fun c => c.target = target) with
  | some c => (pick (hist c.phase c.var) c.idx).getD dflt
  | none => dflt

/-- The fuel summation group of the mission, with the masses that reach it; inputs of `ExecComp` without value are 1.
Part of the model of aviary/core/aviary_group.py:1269-1286. -/
noncomputable def fuelOf (name : String) (margin : ℚ) (cs : List Conn) (reserve : List String)
    (hist : String → String → List ℝ) (gross additional totalFuel capacity unusable taxiIn : ℝ) : FuelIn where
  gross := gross
  massFinal := input cs hist 1 (name ++ ".fuel_burned.mass_final")
  hasReserve := !reserve.isEmpty
  reserveInitial := input cs hist 1 (name ++ ".reserve_fuel_burned.mass_initial")
  reserveFinal := input cs hist 1 (name ++ ".reserve_fuel_burned.mass_final")
  margin := margin
  finalMass := input cs hist 1 (name ++ ".reserve_fuel_frac.final_mass")
  additional := additional
  totalFuel := totalFuel
  capacity := capacity
  unusable := unusable
  taxiIn := taxiIn

/-! ## Bus variables from the pre mission -/

/-- One bus variable of a subsystem (aviary/subsystems/subsystem_builder.py, `get_pre_mission_bus_variables`). `none` is an absent key. -/
structure PreBus where
  name : String
  mission : Option (List String)
  post : Option (List String)
  phases : Option (List String)
  units : Option String
  src : Option (List Int)

/-- A parameter added to one phase (`some p`) or to the trajectory for the listed phases (`none`).
Part of the model of aviary/core/aviary_group.py:1219-1237. -/
structure Param where
  phase : Option String
  name : String
  target : String
  dest : List String
  units : String
  deriving DecidableEq

/-- A connection of two names. Part of the model of aviary/core/aviary_group.py:1219-1237. -/
structure Link where
  source : String
  target : String
  src : Option (List Int)
  deriving DecidableEq

/-- `Bus`: part of the model of aviary/core/aviary_group.py:1219-1237. -/
structure Bus where
  params : List Param
  links : List Link

/-- `Bus.add`: part of the model of aviary/core/aviary_group.py:1219-1237. -/
def Bus.add (a b : Bus) : Bus := ⟨a.params ++ b.params, a.links ++ b.links⟩

/-- aviary/core/aviary_group.py:1219-1237: the parameter and connection in each listed phase; an unknown phase raises
`AttributeError`. -/
def inPhases (all : List String) (b : PreBus) (n u : String) : List String → Except Err Bus
  | [] => .ok ⟨[], []⟩
  | p :: ps =>
    if p ∈ all then do
      let r ← inPhases all b n u ps
      .ok (Bus.add ⟨[⟨some p, lastPart n, n, [p], u⟩],
        [⟨"pre_mission." ++ b.name, "traj." ++ p ++ ".parameters:" ++ lastPart n, b.src⟩]⟩ r)
    else .error .attributeError

/-- aviary/core/aviary_group.py:1203-1255: one mission name. -/
def missionName (md all : List String) (b : PreBus) (n : String) : Except Err Bus :=
  if n ∈ md then .ok ⟨[], []⟩
  else match b.units with
    | none => .error .keyError
    | some u => match b.phases with
      | some ps => inPhases all b n u ps
      | none => .ok ⟨[⟨none, lastPart n, n, all, u⟩],
          [⟨"pre_mission." ++ b.name, "traj.parameters:" ++ lastPart n, b.src⟩]⟩

/-- aviary/core/aviary_group.py:1202-1255: all mission names of one bus variable. -/
def missionNames (md all : List String) (b : PreBus) : List String → Except Err Bus
  | [] => .ok ⟨[], []⟩
  | n :: ns => do
    let x ← missionName md all b n
    let y ← missionNames md all b ns
    .ok (x.add y)

/-- aviary/core/aviary_group.py:1191-1270: one bus variable. -/
def oneBus (md all : List String) (b : PreBus) : Except Err Bus := do
  let x ← missionNames md all b (b.mission.getD [])
  .ok (x.add ⟨[], (b.post.getD []).map fun t => ⟨"pre_mission." ++ b.name, t, b.src⟩⟩)

/-- `_add_bus_variables_and_connect`, aviary/core/aviary_group.py:1181-1270 (the bus variables of all subsystems in order). -/
def addBus (md all : List String) : List PreBus → Except Err Bus
  | [] => .ok ⟨[], []⟩
  | b :: bs => do
    let x ← oneBus md all b
    let y ← addBus md all bs
    .ok (x.add y)

/-! ## Masses of external subsystems -/

/-- `name.replace(':', '_')`, aviary/core/aviary_group.py:646 -/
def flat (s : String) : String := String.ofList (s.toList.map fun c => if c = ':' then '_' else c)

/-- The value of `subsystem_mass`, aviary/core/aviary_group.py:624-668: the sum over the formatted names; an input of that name takes
the value of the first variable it is promoted to. Without names the component is not added and the sum is the default of
the variable, 0. -/
def externalMass (val : String → ℚ) (names : List String) : ℚ :=
  (names.map fun n => match names.find? (fun o => flat o = flat n) with
    | some o => val o
    | none => 1).sum

/-! ## Design variables and constraints -/

/-- `Method`: part of the model of aviary/core/aviary_group.py:1288-1433. -/
inductive Method | energyState | twoDof | solved2Dof | custom
  deriving DecidableEq
/-- `Problem`: part of the model of aviary/core/aviary_group.py:1288-1433. -/
inductive Problem | sizing | minFuel | maxRange | multi
  deriving DecidableEq

/-- A design variable with its bounds in lbm. Part of the model of aviary/core/aviary_group.py:1288-1433. -/
structure DV where
  name : String
  lower : ℚ
  upper : Option ℚ
  ref : ℚ
  deriving DecidableEq

/-- The constraints that can be added. Part of the model of aviary/core/aviary_group.py:1288-1433. -/
inductive Con
  /-- `gtow_constraint`: design and actual gross mass agree -/
  | gtow
  /-- `Mission.Constraints.RANGE_RESIDUAL` equals 0 -/
  | range
  /-- `gross_mass_resid` at least 0 with its reference value -/
  | heavier (ref : ℚ)
  /-- `Mission.Constraints.MASS_RESIDUAL` equals 0 -/
  | mass
  /-- `Mission.Constraints.MASS_RESIDUAL` at least 0 -/
  | massAtLeast
  /-- distance flown in a phase equals the target in NM -/
  | distance (phase : String) (target : ℚ)
  /-- duration of a phase equals the target in minutes -/
  | duration (phase : String) (target : ℚ)
  deriving DecidableEq

/-- `missionGross`: part of the model of aviary/core/aviary_group.py:1288-1433. -/
def missionGross : String := "mission:gross_mass"
/-- `designGross`: part of the model of aviary/core/aviary_group.py:1288-1433. -/
def designGross : String := "aircraft:design:gross_mass"

/-- `add_design_variables`, aviary/core/aviary_group.py:1288-1433, after the design variables of the subsystems. `mtow` is the design
gross mass of the inputs in lbm, `mtowKg` the same in kg, `optimizeMass` the truth of that pre mission option. -/
def designVars (m : Method) (p : Option Problem) (optimizeMass requireRange : Bool) (mtow mtowKg : ℚ) :
    List DV × List Con :=
  match m with
  | .solved2Dof => if optimizeMass then ([⟨designGross, 10, some 900000, 175000⟩], []) else ([], [])
  | .custom => ([], [])
  | _ => match p with
    | some .sizing => ([⟨designGross, 10, none, 175000⟩, ⟨missionGross, 10, none, 175000⟩],
        .gtow :: (if requireRange then [.range] else []))
    | some .minFuel => ([⟨missionGross, 10, some mtow, mtow⟩], [.range])
    | some .maxRange => ([], [])
    | some .multi => ([⟨missionGross, 10, some 900000, 175000⟩], [.range, .heavier (mtowKg / 4)])
    | none => ([], [])

/-- What `add_post_mission_systems` reads of a phase: target distance in NM and duration in minutes after conversion, and
whether its type is BREGUET_RANGE. Part of the model of aviary/core/aviary_group.py:861-942. -/
structure PhaseGoal where
  name : String
  distance : Option ℚ
  duration : Option ℚ
  breguet : Bool

/-- `add_post_mission_systems`, aviary/core/aviary_group.py:861-942: the constraints. -/
def postCons (m : Method) (ps : List PhaseGoal) : List Con :=
  (if m = .solved2Dof then Con.massAtLeast else .mass) :: ps.flatMap fun p =>
    (match p.distance with
      | some d => [Con.distance p.name d]
      | none => []) ++
    (match p.duration with
      | some t => if p.breguet then [Con.duration p.name t] else []
      | none => [])

/-- A flown mission: gross masses in lbm, range and target in NM, the fuel residual in lbm, and start and end of each phase
in distance and time. Part of the model of aviary/core/aviary_group.py:1361-1372, 1416-1433, 861-942. -/
structure Flown where
  design : ℚ
  gross : ℚ
  range : ℚ
  target : ℚ
  residual : ℚ
  dist : String → ℚ × ℚ
  time : String → ℚ × ℚ

/-- A constraint holds. `EQConstraintComp` compares both sides, the others are the expressions of aviary/core/aviary_group.py:1361-1372,
1416-1433, 861-942 and the range residual of aviary/mission/energy_state_problem_configurator.py:357-369; kg and lbm differ by a positive
factor. -/
def Con.holds (f : Flown) : Con → Prop
  | .gtow => f.design = f.gross
  | .range => f.target - f.range = 0
  | .heavier _ => 0 ≤ f.design - f.gross
  | .mass => f.residual = 0
  | .massAtLeast => 0 ≤ f.residual
  | .distance p d => d - ((f.dist p).2 - (f.dist p).1) = 0
  | .duration p t => t - ((f.time p).2 - (f.time p).1) = 0

/-- The value of a design variable. Part of the model of aviary/core/aviary_group.py:1361-1372, 1416-1433, 861-942. -/
def Flown.value (f : Flown) (n : String) : ℚ := if n = designGross then f.design else f.gross

/-- A design variable is within its bounds.
Part of the model of aviary/core/aviary_group.py:1361-1372, 1416-1433, 861-942. -/
def DV.holds (f : Flown) (d : DV) : Prop := d.lower ≤ f.value d.name ∧ ∀ u, d.upper = some u → f.value d.name ≤ u

/-- The flown mission is feasible for the optimizer.
Part of the model of aviary/core/aviary_group.py:1361-1372, 1416-1433, 861-942. -/
def Feasible (m : Method) (p : Option Problem) (optimizeMass requireRange : Bool) (mtow mtowKg : ℚ) (ps : List PhaseGoal)
    (f : Flown) : Prop :=
  (∀ d ∈ (designVars m p optimizeMass requireRange mtow mtowKg).1, d.holds f) ∧
  (∀ c ∈ (designVars m p optimizeMass requireRange mtow mtowKg).2, c.holds f) ∧ ∀ c ∈ postCons m ps, c.holds f

end Verif.Wiring
