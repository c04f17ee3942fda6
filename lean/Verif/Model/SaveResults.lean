import Verif.Model.InputDeck

/-!
# Saving and reloading a sized aircraft

aviary/core/aviary_problem.py: `save_results` 1875-1947 and `_read_sizing_json` 1981-2066. Values are those of
`Verif.PVal`; a path is taken as its text. JSON keeps numbers exactly here (no NaN or infinity).
-/

namespace Verif.Save

open Verif

mutual
/-- The JSON value written for a Python value (`json.dump`): enums of numbers are written as numbers, other enums and
arrays inside a container are refused with `TypeError`, tuples become lists.
Part of the model of aviary/core/aviary_problem.py:1893. -/
def jsonVal : PVal → Except Err PVal
  | .enum c m => if c.isInt then
      match c.members.find? (fun x => x.1 = m) with
      | some (_, .int i) => .ok (.int i)
      | _ => .error .typeError
    else .error .typeError
  | .list xs => (jsonList xs).map .list
  | .tuple xs => (jsonList xs).map .list
  | .arrF _ => .error .typeError
  | .arrI _ => .error .typeError
  | .arrO _ => .error .typeError
  | v => .ok v
/-- The entries of a container. Part of the model of aviary/core/aviary_problem.py:1893. -/
def jsonList : List PVal → Except Err (List PVal)
  | [] => .ok []
  | x :: xs => do
    let y ← jsonVal x
    let ys ← jsonList xs
    .ok (y :: ys)
end

/-- `str(type(value))` as far as it is read again. Part of the model of aviary/core/aviary_problem.py:1893. -/
inductive Tag | list | enum | other
deriving DecidableEq

/-- aviary/core/aviary_problem.py:1893 -/
def tagOf : PVal → Tag
  | .list _ => .list
  | .enum _ _ => .enum
  | _ => .other

/-- aviary/core/aviary_problem.py:1914-1916: the names of a list of enums; an entry without name raises `AttributeError`. -/
def enumNames : List PVal → Except Err (List PVal)
  | [] => .ok []
  | .enum _ m :: xs => do
    let ys ← enumNames xs
    .ok (.str m :: ys)
  | _ :: _ => .error .attributeError

/-- aviary/core/aviary_problem.py:1903-1926: the value put into the list that is dumped. -/
def prepare : PVal → Except Err PVal
  | .arrF xs => .ok (.list (xs.map .float))
  | .arrI xs => .ok (.list (xs.map .int))
  | .arrO xs => .ok (.list xs)
  | .list [] => .error .indexError
  | .list (.enum c m :: xs) => (enumNames (.enum c m :: xs)).map .list
  | .enum _ m => .ok (.str m)
  | v => .ok v

/-- The value left in the container: a list of enums is changed in place (1914-1916).
Part of the model of aviary/core/aviary_problem.py:1875-1947. -/
def leftBehind : PVal → PVal
  | .list (.enum c m :: xs) => match enumNames (.enum c m :: xs) with
    | .ok ys => .list ys
    | .error _ => .list (.enum c m :: xs)
  | v => v

/-- One row of the file. Part of the model of aviary/core/aviary_problem.py:1890-1929. -/
structure Row where
  name : String
  val : PVal
  units : String
  tag : Tag

/-- `Mission.GROSS_MASS`, `Aircraft.Design.GROSS_MASS`.
Part of the model of aviary/core/aviary_problem.py:1890-1929. -/
def missionGross : String := "mission:gross_mass"
/-- `designGross`: part of the model of aviary/core/aviary_problem.py:1890-1929. -/
def designGross : String := "aircraft:design:gross_mass"

/-- aviary/core/aviary_problem.py:1890-1929: one row; `gross u` is the gross mass of the mission in units `u`. -/
def saveRow (gross : String → ℚ) (x : String × Item) : Except Err Row :=
  if x.1 = missionGross ∨ x.1 = designGross then .ok ⟨x.1, .float (gross x.2.2), x.2.2, tagOf x.2.1⟩
  else match prepare x.2.1 with
    | .error e => .error e
    | .ok v => match jsonVal v with
      | .error e => .error e
      | .ok w => .ok ⟨x.1, w, x.2.2, tagOf x.2.1⟩

/-- All rows, in order. The exceptions of the rows are those of the first row that has one (the code prepares all rows
before it dumps the first). Part of the model of aviary/core/aviary_problem.py:1875-1947. -/
def saveRows (gross : String → ℚ) : NV → Except Err (List Row)
  | [] => .ok []
  | x :: s => match saveRow gross x with
    | .error e => .error e
    | .ok r => match saveRows gross s with
      | .error e => .error e
      | .ok rs => .ok (r :: rs)

/-- `save_results`, aviary/core/aviary_problem.py:1875-1947; `design` is the design gross mass in lbm. -/
def save (gross : String → ℚ) (design : ℚ) (s : NV) : Except Err (List Row) :=
  match saveRows gross s with
  | .error e => .error e
  | .ok rs => .ok (if Dict.has s designGross then rs else rs ++ [⟨designGross, .float design, "lbm", .other⟩])

/-- The container after `save_results`. Part of the model of aviary/core/aviary_problem.py:1875-1947. -/
def afterSave (s : NV) : NV := s.map fun x => (x.1, leftBehind x.2.1, x.2.2)

/-- aviary/core/aviary_problem.py:2017-2024, 2031-2039: the text after the last colon without brackets, quotes and spaces. -/
def cleanText (s : String) : String :=
  let t := (s.toList.reverse.takeWhile (fun c => c ≠ ':')).reverse
  String.ofList (t.filter fun c => ¬(c = '>' ∨ c = '<' ∨ c = ']' ∨ c = '\'' ∨ c = ' '))

/-- Whether an entry is text with `<` (aviary/core/aviary_problem.py:2011-2012). -/
def marked : PVal → Bool
  | .str s => decide ('<' ∈ s.toList)
  | _ => false

/-- `convert_strings_to_data` of a list; an entry that is not text has no `strip`.
Part of the model of aviary/core/aviary_problem.py:2005-2040. -/
def convertTexts (rt : TxtRT) : List PVal → Except Err (List PVal)
  | [] => .ok []
  | .str s :: xs => do
    let ys ← convertTexts rt xs
    .ok (convertEntry rt s.toList :: ys)
  | _ :: _ => .error .attributeError

/-- aviary/core/aviary_problem.py:2005-2040: the value handed to `set_val`. -/
def loadVal (rt : TxtRT) (r : Row) : Except Err PVal :=
  match r.tag with
  | .list => match r.val with
    | .list xs =>
      if xs.any marked then
        (convertTexts rt (xs.map fun x => match x with
          | .str s => if '<' ∈ s.toList then .str (cleanText s) else x
          | _ => x)).map .list
      else .ok (.list xs)
    | .str s => .ok (.str s)
    | _ => .error .typeError
  | .enum => match r.val with
    | .str s => .ok (.list [convertEntry rt (cleanText s).toList])
    | _ => .error .attributeError
  | .other => .ok r.val

/-- aviary/core/aviary_problem.py:2003-2064: one row; values that cannot be set and names without metadata are skipped. -/
def loadRow (db : UnitDB) (rt : PyRT) (tx : TxtRT) (md : Dict String Meta) (s : NV) (r : Row) : Except Err NV :=
  match loadVal tx r with
  | .error e => .error e
  | .ok v => .ok (if Dict.has md r.name then avStep db rt md s ⟨r.name, v, some r.units⟩ else s)

/-- The rows one after the other. Part of the model of aviary/core/aviary_problem.py:1981-2066. -/
def loadFrom (db : UnitDB) (rt : PyRT) (tx : TxtRT) (md : Dict String Meta) : NV → List Row → Except Err NV
  | s, [] => .ok s
  | s, r :: rs => match loadRow db rt tx md s r with
    | .error e => .error e
    | .ok s' => loadFrom db rt tx md s' rs

/-- `_read_sizing_json`, aviary/core/aviary_problem.py:1981-2066 -/
def load (db : UnitDB) (rt : PyRT) (tx : TxtRT) (md : Dict String Meta) (rs : List Row) : Except Err NV :=
  loadFrom db rt tx md [] rs

/-! ## The enums of aviary/variable_info/enums.py -/

/-- aviary/variable_info/enums.py:4-294: class name, whether its members are numbers, members with their values. -/
def enums : List EnumCls :=
  [⟨"AircraftTypes", false, [("TRANSPORT", .str "transport"), ("BLENDED_WING_BODY", .str "BWB")]⟩,
   ⟨"AlphaModes", false, [("DEFAULT", .int 1), ("ROTATION", .int 2), ("LOAD_FACTOR", .int 3), ("FUSELAGE_PITCH", .int 4),
     ("DECELERATION", .int 5), ("REQUIRED_LIFT", .int 6), ("ALTITUDE_RATE", .int 7), ("CONSTANT_ALTITUDE", .int 8),
     ("FLIGHT_PATH_ANGLE", .int 9)]⟩,
   ⟨"AtmosphereModel", false, [("STANDARD", .str "standard"), ("COLD", .str "cold"), ("HOT", .str "hot"),
     ("TROPICAL", .str "tropical"), ("POLAR", .str "polar"), ("MARS_REFERENCE", .str "mars_reference"),
     ("MARS_HELLAS_HOT", .str "mars_hellas_hot"), ("MARS_HELLAS_COLD", .str "mars_hellas_cold"),
     ("MARS_EQUATOR_HOT", .str "mars_equator_hot"), ("MARS_EQUATOR_COLD", .str "mars_equator_cold"),
     ("MARS_POLAR_HOT", .str "mars_polar_hot"), ("MARS_POLAR_COLD", .str "mars_polar_cold"),
     ("VENUS_REFERENCE", .str "venus_reference")]⟩,
   ⟨"CodeOrigin", false, [("FLOPS", .str "FLOPS"), ("GASP", .str "GASP"), ("GASP_ALT", .str "GASP_ALT")]⟩,
   ⟨"EquationsOfMotion", false, [("ENERGY_STATE", .str "energy_state"), ("TWO_DEGREES_OF_FREEDOM", .str "2DOF"),
     ("SOLVED_2DOF", .str "solved_2DOF"), ("CUSTOM", .str "custom")]⟩,
   ⟨"EngineDeckType", false, [("FLOPS", .str "FLOPS"), ("GASP", .str "GASP"), ("GASP_TS", .str "GASP_TS")]⟩,
   ⟨"GASPEngineType", false, [("RECIP_CARB", .int 1), ("RECIP_FUEL_INJECT", .int 2), ("RECIP_FUEL_INJECT_GEARED", .int 3),
     ("ROTARY", .int 4), ("TURBOSHAFT", .int 5), ("TURBOPROP", .int 6), ("TURBOJET", .int 7), ("RECIP_CARB_HOPWSZ", .int 11),
     ("RECIP_FUEL_INJECT_HOPWSZ", .int 12), ("RECIP_FUEL_INJECT_GEARED_HOPWSZ", .int 13), ("ROTARY_RCWSZ", .int 14)]⟩,
   ⟨"FlapType", false, [("PLAIN", .int 1), ("SPLIT", .int 2), ("SINGLE_SLOTTED", .int 3), ("DOUBLE_SLOTTED", .int 4),
     ("TRIPLE_SLOTTED", .int 5), ("FOWLER", .int 6), ("DOUBLE_SLOTTED_FOWLER", .int 7)]⟩,
   ⟨"LegacyCode", false, [("FLOPS", .str "FLOPS"), ("GASP", .str "GASP")]⟩,
   ⟨"PhaseType", false, [("ACCEL", .str "accel"), ("BREGUET_RANGE", .str "breguet_range"), ("DEFAULT", .str "default"),
     ("SIMPLE_CRUISE", .str "simple_cruise"), ("TWO_DOF_TAKEOFF", .str "two_dof_takeoff")]⟩,
   ⟨"ProblemType", false, [("SIZING", .str "sizing"), ("OFF_DESIGN_MIN_FUEL", .str "off_design_min_fuel"),
     ("OFF_DESIGN_MAX_RANGE", .str "off_design_max_range"), ("MULTI_MISSION", .str "multimission")]⟩,
   ⟨"SpeedType", false, [("EAS", .str "EAS"), ("TAS", .str "TAS"), ("MACH", .str "mach")]⟩,
   ⟨"ThrottleAllocation", false, [("FIXED", .str "fixed"), ("STATIC", .str "static"), ("DYNAMIC", .str "dynamic")]⟩,
   ⟨"Transcription", false, [("COLLOCATION", .str "collocation"), ("PICARDSHOOTING", .str "picardshooting")]⟩,
   ⟨"Verbosity", true, [("QUIET", .int 0), ("BRIEF", .int 1), ("VERBOSE", .int 2), ("DEBUG", .int 3)]⟩]

end Verif.Save
