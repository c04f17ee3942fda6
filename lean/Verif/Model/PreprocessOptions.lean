import Mathlib.Data.Rat.Defs

/-!
# Defaults set by `preprocess_options`

Models aviary/utils/preprocessors.py:26-189. Options are a record with one optional field per option the
function reads or writes (`none` = "not in aviary_options"). The calls of the three other preprocessors
(lines 53-57) work on options outside this record and are left out. Warnings are returned as a list.
Values in inches, `unitless` and so on are stored without their unit except for gravity and density.
-/

namespace Verif.Prep

/-- aviary/variable_info/enums.py: `LegacyCode` -/
inductive Legacy | flops | gasp deriving DecidableEq, Repr
/-- aviary/variable_info/enums.py: `AircraftTypes` -/
inductive ACType | transport | bwb deriving DecidableEq, Repr

/-- A value that is a scalar or an array. Part of the model of aviary/utils/preprocessors.py:26-189. -/
inductive SA | scalar (q : ℚ) | array (l : List ℚ) deriving DecidableEq, Repr

/-- The options read or written. Part of the model of aviary/utils/preprocessors.py:26-189. -/
structure Opts (A : Type) where
  verbosity : Option ℤ
  arRef : Option SA
  ar : Option SA
  tcRef : Option SA
  tc : Option SA
  excrescence : Option ℚ
  aeroMethod : Option Legacy
  massMethod : Option Legacy
  designType : Option ACType
  simpleLayout : Option Bool
  seatEconomy : Option ℚ
  seatBusiness : Option ℚ
  seatFirst : Option ℚ
  atmosphere : Option A
  gravity : Option (ℚ × String)
  density : Option (ℚ × String)
  deriving DecidableEq, Repr

/-- Exceptions of the function. Part of the model of aviary/utils/preprocessors.py:26-189. -/
inductive Err | noMassMethod | index deriving DecidableEq, Repr

/-- Warnings of the function. Part of the model of aviary/utils/preprocessors.py:26-189. -/
inductive Warn | arRef | tcRef | designType | seatEconomy | seatBusiness | seatFirst
  deriving DecidableEq, Repr

/-- What `meta_data` and `get_atmosphere_data` supply: default verbosity and atmosphere, and gravity and
sea level density (value, unit) of each atmosphere. Part of the model of aviary/utils/preprocessors.py:26-189. -/
structure Env (A : Type) where
  verbosity : ℤ
  atmosphere : A
  gravity : A → ℚ × String
  density : A → ℚ × String

variable {A : Type}

/-- `(np.isscalar(x) and x == 0) or (not np.isscalar(x) and x[0] == 0)`, aviary/utils/preprocessors.py:64, 77. -/
def isZero : SA → Except Err Bool
  | .scalar q => .ok (q = 0)
  | .array [] => .error .index
  | .array (q :: _) => .ok (q = 0)

/-- aviary/utils/preprocessors.py:62-72 and 75-85: a zero reference value is replaced by the actual value if there is one. -/
def fillRef (w : Warn) (v : ℤ) (ref act : Option SA) : Except Err (Option SA × List Warn) :=
  match ref with
  | none => .ok (none, [])
  | some r => match isZero r with
    | .error e => .error e
    | .ok false => .ok (some r, [])
    | .ok true => match act with
      | none => .ok (some r, [])
      | some a => .ok (some a, if 2 ≤ v then [w] else [])

/-- aviary/utils/preprocessors.py:87-95. -/
def fillExcrescence (o : Opts A) : Option ℚ :=
  match o.excrescence with
  | some x => some x
  | none => if o.aeroMethod = some .flops then some (6 / 100) else none

/-- aviary/utils/preprocessors.py:109-120. -/
def layout (m : Legacy) (d : ACType) (o : Option Bool) : Bool :=
  match o with
  | some b => b
  | none => match m with
    | .flops => true
    | .gasp => if d = .bwb then false else true

/-- One seat width, e.g. aviary/utils/preprocessors.py:126-132. -/
def fillSeat (w : Warn) (v : ℤ) (dflt : ℚ) (s : Option ℚ) : Option ℚ × List Warn :=
  match s with
  | some x => (some x, [])
  | none => (some dflt, if 1 ≤ v then [w] else [])

/-- aviary/utils/preprocessors.py:122-166: the default seat widths (economy, business, first) that apply, if any. -/
def seatDefaults (m : Legacy) (d : ACType) (simple : Bool) : Option (ℚ × ℚ × ℚ) :=
  if simple = false then
    match m with
    | .flops => if d = .transport then some (20, 22, 25) else none
    | .gasp => if d = .bwb then some (20, 22, 28) else none
  else none

/-- The verbosity in force, aviary/utils/preprocessors.py:46-51: argument, option or default. -/
def level (env : Env A) (verb : Option ℤ) (o : Opts A) : ℤ :=
  match verb with
  | some v => v
  | none => match o.verbosity with
    | some v => v
    | none => env.verbosity

/-- aviary/utils/preprocessors.py:59-189, with the verbosity determined. -/
def fill (env : Env A) (v : ℤ) (o : Opts A) : Except Err (Opts A × List Warn) :=
  match fillRef .arRef v o.arRef o.ar with
  | .error e => .error e
  | .ok (arRef, w1) => match fillRef .tcRef v o.tcRef o.tc with
    | .error e => .error e
    | .ok (tcRef, w2) =>
      let exc := fillExcrescence o
      match o.massMethod with
      | none => .error .noMassMethod                      -- lines 97-100
      | some m =>
        let d := o.designType.getD .transport             -- lines 102-107
        let w3 := if o.designType = none ∧ 1 < v then [Warn.designType] else []
        let simple := layout m d o.simpleLayout
        let seats := match seatDefaults m d simple with
          | none => ((o.seatEconomy, []), (o.seatBusiness, []), (o.seatFirst, []))
          | some (e, b, f) => (fillSeat .seatEconomy v e o.seatEconomy,
              fillSeat .seatBusiness v b o.seatBusiness, fillSeat .seatFirst v f o.seatFirst)
        let atm := o.atmosphere.getD env.atmosphere       -- lines 172-175
        .ok ({ o with
          arRef := arRef, tcRef := tcRef, excrescence := exc, simpleLayout := some simple
          seatEconomy := seats.1.1, seatBusiness := seats.2.1.1, seatFirst := seats.2.2.1
          atmosphere := some atm
          gravity := some (o.gravity.getD (env.gravity atm))       -- lines 180-184
          density := some (o.density.getD (env.density atm)) },    -- lines 186-189
          w1 ++ w2 ++ w3 ++ seats.1.2 ++ seats.2.1.2 ++ seats.2.2.2)

/-- `preprocess_options`, aviary/utils/preprocessors.py:26-189; `verb` is the argument `verbosity`. -/
def run (env : Env A) (verb : Option ℤ) (o : Opts A) : Except Err (Opts A × List Warn) :=
  fill env (level env verb o) (match verb with
    | some _ => o
    | none => { o with verbosity := some (level env verb o) })

end Verif.Prep
