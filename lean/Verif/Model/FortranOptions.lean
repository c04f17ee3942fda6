import Verif.Model.InputDeck

/-!
# Special cases of the conversion from legacy decks

Models the value dependent parts of `update_gasp_options`, `update_flops_options`, `update_flops_scaler_variables` and
`update_gasp_scaler_variables` (/repo/aviary/utils/fortran_to_aviary.py:480-1452).
Stored values are one-element lists of numbers; the model keeps the number.  Numbers are rationals.
-/

namespace Verif.Fortran

/-! ## Scalers that stand for masses or areas -/

/-- Numbers with units under Aviary names. Part of the model of aviary/utils/fortran_to_aviary.py:1356-1380. -/
abbrev NumDict := Dict Txt (ℚ × String)

/-- `var_name + '_scaler'` (aviary/utils/fortran_to_aviary.py:1367, 1394). -/
def scalerName (name : Txt) : Txt := name ++ "_scaler".toList

/-- `'area' in var_name.lower()` (aviary/utils/fortran_to_aviary.py:1376, 1403). -/
def isArea (name : Txt) : Bool := decide ("area".toList <:+: lower name)

/-- aviary/utils/fortran_to_aviary.py:1356-1380 `update_flops_scaler_variables` (`limit` 5) and 1383-1407
`update_gasp_scaler_variables` (`limit` 10). -/
def updateScaler (limit : ℚ) (d : NumDict) (name : Txt) : NumDict :=
  match d.get? (scalerName name) with
  | none => d
  | some (x, _) =>
    if x ≤ 0 then d.erase (scalerName name)
    else if x < limit then d
    else if x > limit then
      (d.set name (x, if isArea name then "ft**2" else "lbm")).erase (scalerName name)
    else d

/-- The loops in aviary/utils/fortran_to_aviary.py:484-485 and 989-990. -/
def updateScalers (limit : ℚ) (names : List Txt) (d : NumDict) : NumDict := names.foldl (updateScaler limit) d

/-- aviary/utils/fortran_to_aviary.py:1412-1447 `flops_scaler_variables`, with the strings of aviary/variable_info/variables.py. -/
def flopsScalerVariables : List Txt :=
  ["aircraft:air_conditioning:mass", "aircraft:anti_icing:mass", "aircraft:apu:mass", "aircraft:avionics:mass",
   "aircraft:canard:mass", "aircraft:canard:wetted_area", "aircraft:crew_and_payload:cargo_container_mass",
   "aircraft:crew_and_payload:flight_crew_mass", "aircraft:crew_and_payload:cabin_crew_mass",
   "aircraft:crew_and_payload:passenger_service_mass", "aircraft:design:empty_mass_margin", "aircraft:electrical:mass",
   "aircraft:engine:thrust_reversers_mass", "aircraft:fins:mass", "aircraft:fuel:fuel_system_mass",
   "aircraft:fuel:unusable_fuel_mass", "aircraft:furnishings:mass", "aircraft:fuselage:mass",
   "aircraft:fuselage:wetted_area", "aircraft:horizontal_tail:mass", "aircraft:horizontal_tail:wetted_area",
   "aircraft:hydraulics:mass", "aircraft:instruments:mass", "aircraft:landing_gear:main_gear_mass",
   "aircraft:landing_gear:nose_gear_mass", "aircraft:nacelle:mass", "aircraft:nacelle:wetted_area",
   "aircraft:propulsion:total_engine_oil_mass", "aircraft:vertical_tail:mass", "aircraft:vertical_tail:wetted_area",
   "aircraft:wing:mass", "aircraft:wing:shear_control_mass", "aircraft:wing:surface_control_mass",
   "aircraft:wing:wetted_area"].map String.toList

/-- The scaler of the engine oil mass in aviary/variable_info/variables.py. -/
def oilScaler : Txt := "aircraft:propulsion:engine_oil_mass_scaler".toList

/-! ## GASP -/

/-- The design range that is stored: a number, or the list it was given as, wrapped once more.
Part of the model of aviary/utils/fortran_to_aviary.py:506-527. -/
inductive RangeVal
  | num (q : ℚ) | nested (xs : List ℚ)
  deriving DecidableEq, Repr

/-- aviary/utils/fortran_to_aviary.py:506-527: design range and problem type; the stored problem type is `none` when the deck gave
none.  The value is always a list (line 512); lines 524-526 are never reached. -/
def designRange (r : List ℚ) (pt : Option String) : Except Err (RangeVal × Option String) :=
  match r with
  | [] => .error .indexError
  | r0 :: rest =>
    if r0 = 0 then .ok (.num 0, some "off_design_max_range")
    else
      let p := pt.getD "sizing"
      if p = "sizing" then .ok (.num r0, pt)
      else if p = "alternate" then
        match rest[1]? with
        | none => .error .indexError
        | some x => .ok (.num x, pt)
      else if p = "off_design_max_range" then .ok (.num 0, pt)
      else .ok (.nested r, pt)

/-- Passenger counts after the conversion. Part of the model of aviary/utils/fortran_to_aviary.py:530-552. -/
structure PaxOut where
  pax : Option Int
  first : Option Int
  economy : Option Int
  deriving DecidableEq, Repr

/-- aviary/utils/fortran_to_aviary.py:530-552: `first` is the fraction of first class passengers. -/
def gaspPassengers (pax first : Option ℚ) : Except Err PaxOut :=
  match pax, first with
  | none, none => .ok ⟨none, none, none⟩
  | some p, none => .ok ⟨some (truncToInt p), none, none⟩
  | none, some _ => .error .unboundLocal
  | some p, some f =>
    let n := truncToInt p
    let nf := truncToInt (f * n)
    .ok ⟨some n, some nf, some (n - nf)⟩

/-- Seats abreast (aviary/utils/fortran_to_aviary.py:559-592): truncated, and replaced by `default` when zero. -/
def seatsAbreast (default : Int) (x : ℚ) : Int := if truncToInt x = 0 then default else truncToInt x

/-- Seat pitch (aviary/utils/fortran_to_aviary.py:594-626). -/
def seatPitch (default x : ℚ) : ℚ := if x = 0 then default else x

/-- Strut and fold options after the conversion. Part of the model of aviary/utils/fortran_to_aviary.py:640-690. -/
structure StrutFold where
  hasStrut : Bool
  hasFold : Bool
  chooseFold : Bool
  dimensionless : Option ℚ
  attachment : ℚ
  dimensionSpecified : Bool
  foldDimensionSpecified : Bool
  deriving DecidableEq, Repr

/-- aviary/utils/fortran_to_aviary.py:640-690: `strut` is the strut attachment location of the deck, `fold` the folded span. -/
def strutFold (strut fold : ℚ) : StrutFold :=
  let hasStrut := decide (strut ≠ 0)                                          -- lines 643-646
  let hasFold := decide (fold ≠ 0)                                            -- lines 647-650
  let choose : Option Bool :=
    if fold ≠ 0 then (if strut > 0 then some false else if strut = 0 then some true else none) else none  -- 651-654
  let neg := decide (strut < 0)                                               -- lines 656-659
  let hasFold := if neg then true else hasFold
  let choose := if neg then some false else choose
  let loc := if neg then |strut| else strut
  let small := decide (loc < 1)                                               -- lines 661-668
  let chosen := choose.getD false
  { hasStrut := hasStrut
    hasFold := hasFold
    chooseFold := if hasFold then chosen else true                            -- line 689
    dimensionless := if small then some loc else none
    attachment := if small then strut else loc
    dimensionSpecified := !small
    foldDimensionSpecified :=                                                 -- lines 670-690
      if hasFold then (if chosen = false then true else decide (fold > 1)) else false }

/-- Flap types in the order of their GASP numbers (aviary/utils/fortran_to_aviary.py:487-495). -/
def flapTypes : List String :=
  ["plain", "split", "single_slotted", "double_slotted", "triple_slotted", "fowler", "double_slotted_fowler"]

/-- The flap type of the deck: a name or a number. Part of the model of aviary/utils/fortran_to_aviary.py:693-696. -/
inductive FlapIn
  | name (s : String) | num (i : Int)

/-- `xs[i]` with Python's negative indices. Part of the model of aviary/utils/fortran_to_aviary.py:693-696. -/
def pyIndex {α : Type} (xs : List α) (i : Int) : Except Err α :=
  let j := if i < 0 then i + xs.length else i
  if j < 0 then .error .indexError
  else match xs[j.toNat]? with
    | some x => .ok x
    | none => .error .indexError

/-- aviary/utils/fortran_to_aviary.py:693-696: the flap type that is stored. -/
def flapType : FlapIn → Except Err String
  | .name s => .ok s
  | .num i => pyIndex flapTypes (i - 1)

/-- aviary/utils/fortran_to_aviary.py:697 `flap_types.index(flap_type)`. -/
def flapIndex (s : String) : Except Err ℕ :=
  match flapTypes.findIdx? (· = s) with
  | some i => .ok i
  | none => .error .valueError

/-- Flap data: mass coefficient, optimum deflection, lift and drag increment.
Part of the model of aviary/utils/fortran_to_aviary.py:698-718. -/
structure Flap where
  mass : ℚ
  deflection : ℚ
  lift : ℚ
  drag : ℚ
  deriving DecidableEq, Repr

/-- aviary/utils/fortran_to_aviary.py:698-718: zero (for the mass coefficient: no positive) entries are replaced from the tables. -/
def flapData (i : ℕ) (f : Flap) : Flap where
  mass := if f.mass ≤ 0 then [0.62, 1.0, 0.733, 1.2, 1.32, 0.633, 0.678].getD i 0 else f.mass
  deflection := if f.deflection = 0 then [60, 60, 40, 55, 55, 30, 30].getD i 0 else f.deflection
  lift := if f.lift = 0 then [0.9, 0.8, 1.18, 1.4, 1.6, 1.67, 2.25].getD i 0 else f.lift
  drag := if f.drag = 0 then [0.12, 0.23, 0.13, 0.23, 0.23, 0.1, 0.15].getD i 0 else f.drag

/-- aviary/utils/fortran_to_aviary.py:693-718. -/
def flaps (t : FlapIn) (f : Flap) : Except Err (String × Flap) := do
  let s ← flapType t
  let i ← flapIndex s
  .ok (s, flapData i f)

/-- Reserve fuel after the conversion: margin in percent (`none`: not set here) and additional mass.
Part of the model of aviary/utils/fortran_to_aviary.py:725-743. -/
structure Reserve where
  margin : Option ℚ
  additional : ℚ
  deriving DecidableEq, Repr

/-- aviary/utils/fortran_to_aviary.py:725-743: the `ValueError` of line 737 is built but not raised. -/
def reserve (x : ℚ) : Reserve :=
  if x ≤ 0 then ⟨some (-x * 100), 0⟩
  else if x < 10 then ⟨none, 0⟩
  else ⟨none, x⟩

/-- aviary/utils/fortran_to_aviary.py:746-752: fuel volume margin and the units it is stored with (`none`: left as it is). -/
def volumeMargin (x : ℚ) (units : String) : ℚ × String := if x < 0 then (0, "lbm") else (x, units)

/-- aviary/utils/fortran_to_aviary.py:826-831: furnishing mass, and the scaler with its units that replaces a negative one. -/
def furnishings (x : ℚ) : Option ℚ × Option (ℚ × String) :=
  if x < 0 then (none, some (|x|, "lbm")) else (some x, none)

/-! ## FLOPS -/

/-- A mass that a FLOPS scaler of at least one stands for (aviary/utils/fortran_to_aviary.py:1001-1018): the mass and the new
scaler. -/
def scalerAsMass (x : ℚ) : Option ℚ × ℚ := if x ≥ 1 then (some x, 0) else (none, x)

/-- Fuel capacity of the wing (aviary/utils/fortran_to_aviary.py:1020-1049): `density` is the converted fuel density in
`lbm/ft**3`.  Result: capacity that stays, wing fuel fraction that is set. -/
def wingFuel (capacity : Option ℚ) (density : ℚ) : Except Err (Option ℚ × Option ℚ) :=
  match capacity with
  | none => .ok (none, none)
  | some c =>
    if c < 50 then
      let f := if c < 0 then 23 else c
      if density * (2 / 3) = 0 then .error .zeroDivision
      else .ok (none, some (f / (density * (2 / 3))))
    else .ok (some c, none)

/-- The maximum lift coefficient at landing (aviary/utils/fortran_to_aviary.py:1055-1063). -/
def landingLift (given clapp : Option ℚ) : ℚ :=
  match given with
  | some c => c
  | none => match clapp with
    | some c => 1.69 * c
    | none => 3

/-- Wing stations of a blended wing body after a station at the centre line is added.
Part of the model of aviary/utils/fortran_to_aviary.py:1079-1111. -/
structure Stations where
  station : List ℚ
  chord : List ℚ
  sweep : List ℚ
  thickness : List ℚ

/-- aviary/utils/fortran_to_aviary.py:1079-1111. -/
def bwbStations (s : Stations) : Stations :=
  let station := 0 :: s.station
  let n := station.length
  { station := station
    chord := -1 :: s.chord.take (n - 1)
    sweep := 0 :: s.sweep.take (n - 2)
    thickness := -1 :: s.thickness.take (n - 1) }

/-- The tail planform: values of the deck, `none` when missing.
Part of the model of aviary/utils/fortran_to_aviary.py:1194-1217. -/
structure Tails where
  wingTC : Option ℚ
  wingTaper : Option ℚ
  wingSweep : Option ℚ
  wingAR : Option ℚ
  htTC : Option ℚ
  vtTC : Option ℚ
  htTaper : Option ℚ
  vtTaper : Option ℚ
  htSweep : Option ℚ
  vtSweep : Option ℚ
  htAR : Option ℚ
  vtAR : Option ℚ
  deriving DecidableEq, Repr

/-- The conditions of aviary/utils/fortran_to_aviary.py:1200-1266. -/
def isZero (x : ℚ) : Bool := x = 0

/-- `below`: part of the model of aviary/utils/fortran_to_aviary.py:1219-1233. -/
def below (c x : ℚ) : Bool := x < c

/-- `name not in input_values or value cond`. Part of the model of aviary/utils/fortran_to_aviary.py:1194-1217. -/
def missing (v : Option ℚ) (cond : ℚ → Bool) : Bool :=
  match v with
  | none => true
  | some x => cond x

/-- Thickness to chord ratios of the tails (aviary/utils/fortran_to_aviary.py:1194-1217). -/
def tailTC (t : Tails) : Tails :=
  let t := if missing t.htTC isZero ∧ t.wingTC.isSome then { t with htTC := t.wingTC } else t
  if missing t.vtTC isZero ∧ t.wingTC.isSome then { t with vtTC := t.wingTC } else t

/-- Taper ratios (aviary/utils/fortran_to_aviary.py:1219-1233). -/
def tailTaper (t : Tails) : Except Err Tails :=
  if missing t.htTaper (below 0) then
    match t.wingTaper with
    | none => .error .keyError
    | some x =>
      .ok { t with htTaper := some x, vtTaper := if missing t.vtTaper (below 0) then some x else t.vtTaper }
  else .ok { t with vtTaper := if missing t.vtTaper (below 0) ∧ t.htTaper.isSome then t.htTaper else t.vtTaper }

/-- Sweep (aviary/utils/fortran_to_aviary.py:1235-1252).  `Aircraft.WING` (lines 1239, 1250) is not an attribute of the class
`Aircraft`, whose attribute is `Wing`: reading it raises `AttributeError`. -/
def tailSweep (t : Tails) : Except Err Tails :=
  if missing t.htSweep (below (-90)) then .error .attributeError
  else if missing t.vtSweep (below (-90)) then
    (if t.htSweep.isSome then .ok { t with vtSweep := t.htSweep } else .error .attributeError)
  else .ok t

/-- Aspect ratios (aviary/utils/fortran_to_aviary.py:1254-1268), with `Aircraft.WING` in line 1258. -/
def tailAR (t : Tails) : Except Err Tails :=
  if missing t.htAR (below 0) then .error .attributeError
  else .ok (if missing t.vtAR (below 0) ∧ t.htAR.isSome then { t with vtAR := t.htAR.map (· / 2) } else t)

/-- aviary/utils/fortran_to_aviary.py:1194-1268: defaults of the tail from the wing. -/
def tailDefaults (t : Tails) : Except Err Tails := do tailAR (← tailSweep (← tailTaper (tailTC t)))

/-- Fuel flow factors (aviary/utils/fortran_to_aviary.py:1284-1302): subsonic, supersonic, and the factor that stays unused. -/
def fuelFlowFactors (sub sup fact : Option ℚ) : Option ℚ × Option ℚ × Option ℚ :=
  match fact with
  | none => (sub, sup, none)
  | some f => (some (sub.getD 1 * f), some (sup.getD 1 * f), none)

/-- Variables that are removed when they are zero (aviary/utils/fortran_to_aviary.py:1305-1320) or negative (1323-1332). -/
def removeIf (cond : ℚ → Bool) (names : List Txt) (d : NumDict) : NumDict :=
  names.foldl (fun d n => match d.get? n with
    | none => d
    | some (x, _) => if cond x then d.erase n else d) d

end Verif.Fortran
