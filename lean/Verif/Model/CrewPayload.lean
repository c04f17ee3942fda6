import Verif.Model.Dict
import Mathlib.Data.Rat.Defs
import Mathlib.Algebra.Order.Ring.Rat

/-!
# Model of `preprocess_crewpayload` and `preprocess_fuel_capacities`
(aviary/utils/preprocessors.py:193-641 and 644-723)

Only the options these functions read or write are kept, as optional fields: `none` means "not in
aviary_options".  Counts are unbounded integers, masses exact rationals in lbm, ranges in nmi.  Warnings have no
effect on the options and are left out.  On an exception the model returns only the exception (the options
already written stay written in the code).
-/

namespace Verif

/-- `LegacyCode`, aviary/variable_info/enums.py:166-170 -/
inductive MassMethod
  | flops | gasp
  deriving DecidableEq, Repr

/-- Passenger options of one configuration (as flown, or design).
Part of the model of aviary/utils/preprocessors.py:226-263. -/
structure Pax where
  total : Option ℤ
  first : Option ℤ
  business : Option ℤ
  econ : Option ℤ
  deriving DecidableEq, Repr

/-- aviary/utils/preprocessors.py:226-263: `any(key in aviary_options for key in pax_keys)`. For GASP the only key is the total. -/
def Pax.provided (m : MassMethod) (p : Pax) : Bool :=
  match m with
  | .flops => p.total.isSome || p.first.isSome || p.business.isSome || p.econ.isSome
  | .gasp => p.total.isSome

/-- aviary/utils/preprocessors.py:251-253, 261-263: keys that are not given are set to 0. -/
def Pax.fill (m : MassMethod) (p : Pax) : Pax :=
  match m with
  | .flops => ⟨some (p.total.getD 0), some (p.first.getD 0), some (p.business.getD 0), some (p.econ.getD 0)⟩
  | .gasp => { p with total := some (p.total.getD 0) }

/-- aviary/utils/preprocessors.py:279-282, 293-296: copy the values of all keys from the other configuration. -/
def Pax.copyFrom (m : MassMethod) (p src : Pax) : Pax :=
  match m with
  | .flops => src
  | .gasp => { p with total := src.total }

/-- aviary/utils/preprocessors.py:302-306: sum over the class keys (`pax_keys[1:]`). -/
def Pax.classSum (m : MassMethod) (p : Pax) : ℤ :=
  match m with
  | .flops => 0 + p.first.getD 0 + p.business.getD 0 + p.econ.getD 0
  | .gasp => 0

/-- aviary/utils/preprocessors.py:308-348: resolve a conflict between the total and the classes. -/
def Pax.resolve (m : MassMethod) (p : Pax) : Pax :=
  let total := p.total.getD 0
  let s := p.classSum m
  if total ≠ s then
    if s = 0 then { p with econ := some total } else { p with total := some s }
  else p

/-- `CrewOpts`: part of the model of aviary/utils/preprocessors.py:245-348. -/
structure CrewOpts where
  mission : Pax
  design : Pax
  attendants : Option ℤ
  galley : Option ℤ
  flightCrew : Option ℤ
  cabinCrew : Option ℤ
  cargo : Option ℚ
  maxCargo : Option ℚ
  desCargo : Option ℚ
  massPax : Option ℚ
  massBag : Option ℚ
  massWithBags : Option ℚ
  range : Option ℚ
  /-- `NUM_FUSELAGE_ENGINES` : its first entry, `none` when absent (an empty array is not modelled) -/
  fuseEngines : Option ℤ
  /-- `Aircraft.Design.TYPE` present, and equal to TRANSPORT -/
  transport : Option Bool
  tailMount : Option ℚ
  deriving DecidableEq, Repr

/-- aviary/utils/preprocessors.py:245-348 of `preprocess_crewpayload`. -/
def paxStep (m : MassMethod) (o : CrewOpts) : CrewOpts :=
  let mp := o.mission.provided m
  let dp := o.design.provided m
  let mis := o.mission.fill m
  let des := o.design.fill m
  let des := if mp && !dp then des.copyFrom m mis else des
  let mis := if !mp && dp then mis.copyFrom m des else mis
  { o with design := des.resolve m, mission := mis.resolve m }

/-- The cargo decision tree, aviary/utils/preprocessors.py:418-481: `(cargo, max_cargo, des_cargo)`. -/
def cargoTree (sizing : Bool) : Option ℚ → Option ℚ → Option ℚ → ℚ × ℚ × ℚ
  | some c, some m, some d => if sizing && c ≠ d then (d, m, d) else (c, m, d)
  | some c, some m, none => (c, m, m)
  | some c, none, some d => (c, d, d)
  | some c, none, none => (c, c, c)
  | none, some m, some d => (0, m, d)
  | none, some m, none => (0, m, 0)
  | none, none, some d => (0, d, d)
  | none, none, none => (0, 0, 0)

/-- GASP cargo, aviary/utils/preprocessors.py:396-528. `sizing`: `problem_type == ProblemType.SIZING` (default when not given). -/
def cargoStep (sizing : Bool) (o : CrewOpts) : Except Err CrewOpts :=
  let (c, m, d) := cargoTree sizing o.cargo o.maxCargo o.desCargo
  if c > m then .error .userWarning
  else if d > m then .error .userWarning
  else
    match (match o.massWithBags with
      | some w => Except.ok w
      | none =>
        match o.massPax, o.massBag with
        | some a, some b => Except.ok (a + b)
        | _, _ => Except.error Err.keyError) with
    | .error e => .error e
    | .ok w => .ok { o with massWithBags := some w, cargo := some c, maxCargo := some m, desCargo := some d }

/-- Default number of flight attendants, aviary/utils/preprocessors.py:533-549. -/
def attendantsFor (pax : ℤ) : ℤ :=
  if 0 < pax then (if pax < 51 then 1 else pax / 40 + 1) else 0

/-- Default galley crew, aviary/utils/preprocessors.py:551-561. -/
def galleyFor (pax : ℤ) : ℤ := if 150 < pax then pax / 250 + 1 else 0

/-- Default flight crew, aviary/utils/preprocessors.py:564-572. -/
def flightCrewFor (pax : ℤ) : ℤ := if pax < 151 then 2 else 3

/-- Default baggage mass per passenger, aviary/utils/preprocessors.py:590-600. -/
def baggageFor (range : Option ℚ) : ℚ :=
  match range with
  | none => 35
  | some r => if r ≤ 900 then 35 else if r ≤ 2900 then 40 else 44

/-- FLOPS crew, baggage and tail, aviary/utils/preprocessors.py:530-639. -/
def crewStep (o : CrewOpts) : Except Err CrewOpts :=
  let pax := o.design.total.getD 0
  let att := match o.attendants with
    | some a => if a < 0 then attendantsFor pax else a
    | none => attendantsFor pax
  let gal := match o.galley with
    | some g => if g < 0 then galleyFor pax else g
    | none => galleyFor pax
  let crew := o.flightCrew.getD (flightCrewFor pax)
  let cabin := o.cabinCrew.map (fun n => if att + gal ≠ n then att + gal else n)
  let bag := o.massBag.getD (baggageFor o.range)
  let o1 := { o with attendants := some att, galley := some gal, flightCrew := some crew, cabinCrew := cabin,
                     massBag := some bag }
  match o.tailMount with
  | some _ => .ok o1
  | none =>
    match o.fuseEngines with
    | some n =>
      if n > 1 then
        match o.transport with
        | none => .error .keyError
        | some t => .ok { o1 with tailMount := some (if t then 1 else 0) }
      else .ok { o1 with tailMount := some 0 }
    | none => .ok { o1 with tailMount := some 0 }

/-- `preprocess_crewpayload`, aviary/utils/preprocessors.py:193-641. `method = none`: MASS_METHOD not given. -/
def crewPayload (method : Option MassMethod) (sizing : Bool) (o : CrewOpts) : Except Err CrewOpts :=
  match method with
  | none => .error .userWarning
  | some .gasp => cargoStep sizing (paxStep .gasp o)
  | some .flops => crewStep (paxStep .flops o)

/-! ## Fuel capacities -/

/-- `FuelCaps`: part of the model of aviary/utils/preprocessors.py:644-723. -/
structure FuelCaps where
  total : Option ℚ
  wing : Option ℚ
  fuselage : Option ℚ
  aux : Option ℚ
  deriving DecidableEq, Repr

/-- `preprocess_fuel_capacities`, aviary/utils/preprocessors.py:644-723. -/
def fuelCaps (method : Option MassMethod) (o : FuelCaps) : Except Err FuelCaps :=
  match method with
  | none => .error .userWarning
  | some .gasp => .ok o
  | some .flops =>
    match o.total with
    | none => .ok { o with fuselage := some (o.fuselage.getD 0), aux := some (o.aux.getD 0) }
    | some t =>
      let given := [o.wing, o.fuselage, o.aux].filterMap id
      if given.length = 3 ∧ given.sum ≠ t then .error .userWarning
      else if given.length < 3 ∧ given.sum > t then .error .userWarning
      else .ok o

end Verif
