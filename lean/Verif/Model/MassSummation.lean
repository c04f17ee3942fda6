import Mathlib.Algebra.Order.Ring.Rat
import Mathlib.Algebra.BigOperators.Group.List.Basic

/-!
# Model of the mass summation groups

Models `aviary/subsystems/mass/flops_based/mass_summation.py`,
`aviary/subsystems/mass/flops_based/empty_margin.py` and
`aviary/subsystems/mass/gasp_based/mass_summation.py`.

A component is the list of variables it reads, the variable it writes and its `compute`; an OpenMDAO
group whose subsystems promote everything (`promotes_inputs=['*'], promotes_outputs=['*']`) is run by
executing its components in the order of the `add_subsystem` calls on a shared store.
Masses are rational numbers (no rounding); `Aircraft.Nacelle.MASS` is a list, one entry per engine
type, and is only ever read.
-/

namespace Verif.MassSum

/-- The variables that appear in aviary/subsystems/mass/flops_based/mass_summation.py:9-476 and
aviary/subsystems/mass/gasp_based/mass_summation.py:7-287 (the store keys). -/
inductive V
  -- leaf masses, computed elsewhere
  | canard | fins | htail | vtail | fuselage | gear | paint | wing
  | enginePod | structIncrement
  | fuelSystem | miscProp | thrustReversers | engines | battery | engComb | propellers
  | airCond | antiIcing | apu | avionics | electrical | furnishings | furnishingsBase
  | hydraulics | instruments | surfaceControl | oxygen
  | marginScaler | external
  | cargoContainer | cabinCrew | flightCrew | passengerService | unusableFuel | engineOil
  | emergencyEquip | additionalItems
  | payload | gross
  -- masses written by the groups (`controls` is a leaf for GASP)
  | empennage | structure | propulsion | controls | systemsBase | systems | margin | empty
  | operatingItems | operating | zeroFuel | usefulLoad
  deriving DecidableEq, Repr

/-- The store: scalar variables and the nacelle mass of each engine type.
Part of the model of aviary/subsystems/mass/flops_based/mass_summation.py:9-476. -/
structure Env where
  s : V → ℚ
  nacelle : List ℚ

/-- Assignment `outputs[v] = x`. Part of the model of aviary/subsystems/mass/flops_based/mass_summation.py:9-476. -/
def Env.set (e : Env) (v : V) (x : ℚ) : Env :=
  { e with s := fun w => if w = v then x else e.s w }

/-- One explicit component: inputs, output and `compute`.
Part of the model of aviary/subsystems/mass/flops_based/mass_summation.py:9-476. -/
structure Comp where
  reads : List V
  out : V
  f : Env → ℚ

/-- Execution of one component. Part of the model of aviary/subsystems/mass/flops_based/mass_summation.py:9-476. -/
def Comp.exec (c : Comp) (e : Env) : Env := e.set c.out (c.f e)

/-- Execution of a group: its components in order.
Part of the model of aviary/subsystems/mass/flops_based/mass_summation.py:9-476. -/
def run : List Comp → Env → Env
  | [], e => e
  | c :: cs, e => run cs (c.exec e)

/-- `np.dot` of two vectors of the same length (setup makes both `num_engine_type` long).
Part of the model of aviary/subsystems/mass/flops_based/mass_summation.py:105-149. -/
def dot : List ℚ → List ℕ → ℚ
  | x :: xs, n :: ns => x * n + dot xs ns
  | _, _ => 0

/-! ## FLOPS: `aviary/subsystems/mass/flops_based/mass_summation.py` -/

/-- `EmpennageMass`, aviary/subsystems/mass/flops_based/mass_summation.py:84-102. -/
def fEmpennage : Comp :=
  ⟨[.canard, .fins, .htail, .vtail], .empennage,
    fun e => e.s .canard + e.s .fins + e.s .htail + e.s .vtail⟩

/-- `StructureMass`, aviary/subsystems/mass/flops_based/mass_summation.py:105-149; `n` is `Aircraft.Engine.NUM_ENGINES`. -/
def fStructure (n : List ℕ) : Comp :=
  ⟨[.empennage, .fuselage, .gear, .paint, .wing], .structure,
    fun e => e.s .wing + e.s .empennage + e.s .fuselage + e.s .gear + dot e.nacelle n + e.s .paint⟩

/-- `PropulsionMass`, aviary/subsystems/mass/flops_based/mass_summation.py:152-174. -/
def fPropulsion : Comp :=
  ⟨[.fuelSystem, .miscProp, .thrustReversers, .engines, .battery], .propulsion,
    fun e => e.s .thrustReversers + e.s .miscProp + e.s .fuelSystem + e.s .engines + e.s .battery⟩

/-- `FlightControls`, aviary/subsystems/mass/flops_based/mass_summation.py:178-188. -/
def fControls : Comp := ⟨[.surfaceControl], .controls, fun e => e.s .surfaceControl⟩

/-- `SystemsEquipmentMass`, aviary/subsystems/mass/flops_based/mass_summation.py:191-229. -/
def fSystems : Comp :=
  ⟨[.airCond, .antiIcing, .apu, .avionics, .electrical, .furnishings, .hydraulics, .instruments,
      .surfaceControl], .systems,
    fun e => e.s .apu + e.s .instruments + e.s .hydraulics + e.s .electrical + e.s .avionics
      + e.s .furnishings + e.s .airCond + e.s .antiIcing + e.s .surfaceControl⟩

/-- `AltSystemsEquipmentMassBase`, aviary/subsystems/mass/flops_based/mass_summation.py:232-270. -/
def fSystemsBaseAlt : Comp :=
  ⟨[.airCond, .antiIcing, .apu, .avionics, .electrical, .furnishingsBase, .hydraulics, .instruments,
      .surfaceControl], .systemsBase,
    fun e => e.s .surfaceControl + e.s .apu + e.s .instruments + e.s .hydraulics + e.s .electrical
      + e.s .avionics + e.s .furnishingsBase + e.s .airCond + e.s .antiIcing⟩

/-- `AltSystemsEquipmentMass`, aviary/subsystems/mass/flops_based/mass_summation.py:273-301. -/
def fSystemsAlt : Comp :=
  ⟨[.systemsBase, .structure, .propulsion], .systems,
    fun e => e.s .systemsBase + (1 / 100) * (e.s .structure + e.s .propulsion + e.s .systemsBase)⟩

/-- `EmptyMassMargin`, aviary/subsystems/mass/flops_based/empty_margin.py:7-31. -/
def fMargin : Comp :=
  ⟨[.propulsion, .structure, .systems, .marginScaler], .margin,
    fun e => (e.s .propulsion + e.s .structure + e.s .systems) * e.s .marginScaler⟩

/-- `EmptyMass`, aviary/subsystems/mass/flops_based/mass_summation.py:327-349. -/
def fEmpty : Comp :=
  ⟨[.margin, .structure, .propulsion, .systems, .external], .empty,
    fun e => e.s .structure + e.s .propulsion + e.s .systems + e.s .margin + e.s .external⟩

/-- `AltEmptyMass`, aviary/subsystems/mass/flops_based/mass_summation.py:352-389. -/
def fEmptyAlt : Comp :=
  ⟨[.margin, .structure, .propulsion, .systemsBase, .external], .empty,
    fun e => (101 / 100) * (e.s .structure + e.s .propulsion + e.s .systemsBase)
      + e.s .margin + e.s .external⟩

/-- `OperatingItemsMass`, aviary/subsystems/mass/flops_based/mass_summation.py:392-424. -/
def fItems : Comp :=
  ⟨[.cargoContainer, .cabinCrew, .flightCrew, .passengerService, .unusableFuel, .engineOil,
      .additionalItems], .operatingItems,
    fun e => e.s .cabinCrew + e.s .flightCrew + e.s .unusableFuel + e.s .engineOil
      + e.s .passengerService + e.s .cargoContainer + e.s .additionalItems⟩

/-- `OperatingMass`, aviary/subsystems/mass/flops_based/mass_summation.py:427-441 (and aviary/subsystems/mass/gasp_based/mass_summation.py:243-257). -/
def fOperating : Comp :=
  ⟨[.empty, .operatingItems], .operating, fun e => e.s .empty + e.s .operatingItems⟩

/-- `ZeroFuelMass`, aviary/subsystems/mass/flops_based/mass_summation.py:444-458 (and aviary/subsystems/mass/gasp_based/mass_summation.py:260-274). -/
def fZeroFuel : Comp :=
  ⟨[.payload, .operating], .zeroFuel, fun e => e.s .operating + e.s .payload⟩

/-- `UsefulLoadMass`, aviary/subsystems/mass/flops_based/mass_summation.py:461-476 (and aviary/subsystems/mass/gasp_based/mass_summation.py:277-287). -/
def fUseful : Comp :=
  ⟨[.gross, .empty], .usefulLoad, fun e => e.s .gross - e.s .empty⟩

/-- `MassSummation` of FLOPS, aviary/subsystems/mass/flops_based/mass_summation.py:9-81, with `EmptyMassGroup`
(lines 304-324) inlined; `alt` is `Aircraft.Design.USE_ALT_MASS`. -/
def flops (alt : Bool) (n : List ℕ) : List Comp :=
  [fEmpennage, fStructure n, fPropulsion, fControls]
    ++ (if alt then [fSystemsBaseAlt, fSystemsAlt] else [fSystems])
    ++ [fMargin, if alt then fEmptyAlt else fEmpty, fItems, fOperating, fZeroFuel, fUseful]

/-! ## GASP: `aviary/subsystems/mass/gasp_based/mass_summation.py` -/

/-- `EmpennageMass`, aviary/subsystems/mass/gasp_based/mass_summation.py:58-72. -/
def gEmpennage : Comp := ⟨[.htail, .vtail], .empennage, fun e => e.s .htail + e.s .vtail⟩

/-- `StructureMass`, aviary/subsystems/mass/gasp_based/mass_summation.py:75-104. -/
def gStructure : Comp :=
  ⟨[.empennage, .fuselage, .gear, .enginePod, .wing, .structIncrement], .structure,
    fun e => e.s .wing + e.s .empennage + e.s .fuselage + e.s .gear + e.s .enginePod
      + e.s .structIncrement⟩

/-- `PropulsionMass`, aviary/subsystems/mass/gasp_based/mass_summation.py:107-130. -/
def gPropulsion : Comp :=
  ⟨[.fuelSystem, .engComb, .propellers, .battery], .propulsion,
    fun e => e.s .fuelSystem + e.s .engComb + e.s .propellers + e.s .battery⟩

/-- `SystemsEquipmentMass`, aviary/subsystems/mass/gasp_based/mass_summation.py:133-174. -/
def gSystems : Comp :=
  ⟨[.airCond, .antiIcing, .apu, .avionics, .electrical, .furnishings, .hydraulics, .instruments,
      .controls, .oxygen], .systems,
    fun e => e.s .apu + e.s .instruments + e.s .hydraulics + e.s .electrical + e.s .avionics
      + e.s .furnishings + e.s .airCond + e.s .antiIcing + e.s .controls + e.s .oxygen⟩

/-- `EmptyMass`, aviary/subsystems/mass/gasp_based/mass_summation.py:177-197. -/
def gEmpty : Comp :=
  ⟨[.structure, .propulsion, .systems, .external], .empty,
    fun e => e.s .structure + e.s .propulsion + e.s .systems + e.s .external⟩

/-- `OperatingItemsMass`, aviary/subsystems/mass/gasp_based/mass_summation.py:200-240. -/
def gItems : Comp :=
  ⟨[.cargoContainer, .cabinCrew, .flightCrew, .passengerService, .unusableFuel, .engineOil,
      .emergencyEquip, .additionalItems], .operatingItems,
    fun e => e.s .cabinCrew + e.s .flightCrew + e.s .unusableFuel + e.s .engineOil
      + e.s .passengerService + e.s .cargoContainer + e.s .emergencyEquip + e.s .additionalItems⟩

/-- `MassSummation` of GASP, aviary/subsystems/mass/gasp_based/mass_summation.py:8-55. -/
def gasp : List Comp :=
  [gEmpennage, gStructure, gPropulsion, gSystems, gEmpty, gItems, fOperating, fZeroFuel, fUseful]

end Verif.MassSum
