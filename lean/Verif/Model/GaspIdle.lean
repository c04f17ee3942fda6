import Verif.Model.GaspMaps
import Mathlib.Analysis.SpecialFunctions.Pow.Real

/-!
# Converted GASP decks: idle points, temperatures, headers of turboshafts and file names

The rest of `aviary/utils/engine_deck_conversion.py`.  Thrust and fuel flow are of any type `ν`; the
conditions are rationals.  The atmosphere is left open.  Rounding and the text of the numbers are left
out.
-/

namespace Verif.GaspIdle

open GaspMaps

/-! ## Inlet conditions and idle thrust -/

/-- `AtmosCalc`: the temperature at the inlet (`aviary/utils/engine_deck_conversion.py:738-745`). -/
noncomputable def inletT (mach T : ℝ) : ℝ := T * (1 + 0.5 * (1.4 - 1) * mach ^ 2)

/-- `AtmosCalc`: the pressure at the inlet (`aviary/utils/engine_deck_conversion.py:738-746`). -/
noncomputable def inletP (mach T P : ℝ) : ℝ := P * (inletT mach T / T) ^ ((1.4 : ℝ) / (1.4 - 1))

/-- What `CalculateIdle` is given besides the conditions at the inlet
(`aviary/utils/engine_deck_conversion.py:656-677`). -/
structure IdleRef where
  slsAirflow : ℝ
  sfn : ℝ
  pct : ℝ := 0.5
  sfc : ℝ := 1

/-- `CalculateIdle.compute`, the thrust (`aviary/utils/engine_deck_conversion.py:686-703`). -/
noncomputable def idleThrust (r : IdleRef) (t2 p2 : ℝ) : ℝ :=
  let rthet2 := Real.sqrt (t2 / 518.67)
  let delta2 := p2 / 2116.22
  let airflow := r.pct * r.slsAirflow
  airflow * delta2 / rthet2 * r.sfn

/-- `CalculateIdle.compute`, the fuel flow (`aviary/utils/engine_deck_conversion.py:686-705`). -/
noncomputable def idleFuel (r : IdleRef) (t2 p2 : ℝ) : ℝ := idleThrust r t2 p2 * r.sfc

/-- Thrust and fuel flow of the three components in a row; `atm` is temperature and pressure at an
altitude (`aviary/utils/engine_deck_conversion.py:584-632`). -/
noncomputable def idleOf (r : IdleRef) (atm : ℝ → ℝ × ℝ) (mach alt : ℝ) : ℝ × ℝ :=
  let t2 := inletT mach (atm alt).1
  let p2 := inletP mach (atm alt).1 (atm alt).2
  (idleThrust r t2 p2, idleFuel r t2 p2)

/-! ## The columns of a deck -/

/-- The columns of a turbofan deck (`aviary/utils/engine_deck_conversion.py:208-216`). -/
structure Cols (ν : Type) where
  mach : List ℚ
  alt : List ℚ
  t4t2 : List ℚ
  thrust : List ν
  fuel : List ν

/-- `np.meshgrid` of the unique Mach numbers and altitudes, flattened: the Mach number runs first
(`aviary/utils/engine_deck_conversion.py:577-582`). -/
def mesh (machs alts : List ℚ) : List (ℚ × ℚ) :=
  (unique alts).flatMap fun a => (unique machs).map fun m => (m, a)

/-- `_generate_flight_idle`: `idle` is thrust and fuel flow of a Mach number and an altitude
(`aviary/utils/engine_deck_conversion.py:576-643`). -/
def addIdle {ν : Type} (idle : ℚ → ℚ → ν × ν) (c : Cols ν) : Cols ν :=
  let g := mesh c.mach c.alt
  ⟨c.mach ++ g.map (·.1), c.alt ++ g.map (·.2), c.t4t2 ++ List.replicate g.length 0,
    c.thrust ++ g.map fun p => (idle p.1 p.2).1, c.fuel ++ g.map fun p => (idle p.1 p.2).2⟩

/-- The deck gives throttle and not temperature
(`aviary/utils/engine_deck_conversion.py:240`, `:194`). -/
def isThrottle (t4max : ℚ) (ty : ℕ) : Bool := t4max ≤ 100 || ty = 3

/-- The step of the throttle of the structured grid (`aviary/utils/engine_deck_conversion.py:189-197`). -/
def stepOf (t4max : ℚ) (ty : ℕ) : ℚ := if isThrottle t4max ty then 2 else 1 / 2

/-- The temperatures, when they are computed; `t2` is the temperature at the inlet for a Mach number
and an altitude (`aviary/utils/engine_deck_conversion.py:248-290`). -/
def temps (t2 : ℚ → ℚ → ℚ) (mach alt t4t2 : List ℚ) : List ℚ :=
  List.zipWith (· * ·) (List.zipWith t2 mach alt) t4t2

/-- `normalize(x, minimum=0.0, maximum=t4max)` (`aviary/utils/engine_deck_conversion.py:299-305`). -/
def norm (t4max x : ℚ) : ℚ := (x - 0) / (t4max - 0)

/-- A column at the places where the mask holds (`aviary/utils/engine_deck_conversion.py:309-320`). -/
def pick {α : Type} (mask : List Bool) (l : List α) : List α :=
  ((mask.zip l).filter (·.1)).map (·.2)

/-- A line of the written deck; the temperature only if it is computed
(`aviary/utils/engine_deck_conversion.py:341-348`). -/
structure Line (ν : Type) where
  mach : ℚ
  alt : ℚ
  throttle : ℚ
  temp : Option ℚ
  thrust : ν
  fuel : ν

/-- The order of `np.lexsort`: Mach number, altitude, throttle
(`aviary/utils/engine_deck_conversion.py:344-346`). -/
def lineLe {ν : Type} (a b : Line ν) : Bool :=
  a.mach < b.mach || (a.mach = b.mach && (a.alt < b.alt || (a.alt = b.alt && a.throttle ≤ b.throttle)))

/-- The columns put together (`aviary/utils/engine_deck_conversion.py:341-342`). -/
def lines {ν : Type} : List ℚ → List ℚ → List ℚ → List (Option ℚ) → List ν → List ν →
    List (Line ν)
  | m :: ms, a :: as, t :: ts, k :: ks, f :: fs, w :: ws =>
    ⟨m, a, t, k, f, w⟩ :: lines ms as ts ks fs ws
  | _, _, _, _, _, _ => []

/-- The lines written for a turbofan deck: idle points, throttle, removal of what exceeds the
maximum, sorting (`aviary/utils/engine_deck_conversion.py:230-348`). -/
def deckLines {ν : Type} (t2 : ℚ → ℚ → ℚ) (t4max : ℚ) (idle : ℚ → ℚ → ν × ν) (c : Cols ν) :
    List (Line ν) :=
  let d := addIdle idle c
  let T4 := temps t2 d.mach d.alt d.t4t2
  let thr := if isThrottle t4max 1 then d.t4t2.map (norm t4max) else T4.map (norm t4max)
  let temp : List (Option ℚ) :=
    if isThrottle t4max 1 then d.t4t2.map fun _ => none else T4.map some
  let mask := thr.map fun x => decide (x ≤ 1)
  (lines (pick mask d.mach) (pick mask d.alt) (pick mask thr) (pick mask temp) (pick mask d.thrust)
    (pick mask d.fuel)).mergeSort lineLe

/-! ## Turboshafts -/

/-- The scalars of a turboshaft deck (`aviary/utils/engine_deck_conversion.py:442-456`). -/
structure TpScalars (ν : Type) where
  throttleType : ℕ
  t4max : ν
  t4cruise : ν
  t4climb : ν
  t4idle : ν
  xsfc : ν
  cexp : ν
  slsHp : ν
  turbineRpm : ν
  propRpm : ν
  gearRatio : ν
  torqueLimit : ν
  slsAirflow : ν
  deriving DecidableEq, Repr

/-- `_read_tp_header` (`aviary/utils/engine_deck_conversion.py:433-456`). -/
def readTpHeader {ν : Type} (c : Conv ν) (ls : List (List Char)) :
    Option (TpScalars ν × List (List Char)) := do
  let h ← strparse c (readline ls).1 0 ([(.int, 5), (.int, 5), (.skip, 10)] ++ rep 6)
  let k ← strparse c (readline (readline ls).2).1 0 (rep 6)
  match h, k with
  | [.int iread, .int _, .flt t4max, .flt t4mcl, .flt t4mc, .flt t4idle, .flt xsfc, .flt cexp],
    [.flt hp, .flt xnc, .flt rpm, .flt gbx, .flt tq, .flt wa] =>
    some (⟨iread, t4max, t4mc, t4mcl, t4idle, xsfc, cexp, hp, xnc, rpm, gbx, tq, wa⟩,
      (readline (readline ls).2).2)
  | _, _ => none

/-- `_read_gasp_engine` of a turboshaft: corrected shaft power, fuel flow and tailpipe thrust
(`aviary/utils/engine_deck_conversion.py:408-430`). -/
def readTurboshaft {ν : Type} (c : Conv ν) (ls : List (List Char)) :
    Option (TpScalars ν × List (Row ν) × List (Row ν) × List (Row ν)) := do
  let h ← readTpHeader c ls
  let p ← readTable c true h.2
  let f ← readTable c true p.2
  let t ← readTable c true f.2
  pure (h.1, p.1, f.1, t.1)

/-! ## Keys and files -/

/-- The formats (`aviary/utils/engine_deck_conversion.py:154`, `:175`). -/
inductive Format
  | flops | gasp | gaspTs
  deriving DecidableEq, Repr

/-- The columns of a converted deck (`aviary/utils/engine_deck_conversion.py:38-50`, `:181-188`,
`:240-246`). -/
def keys (f : Format) (t4max : ℚ) (ty : ℕ) : List String :=
  match f with
  | .flops =>
    ["Mach Number", "Altitude", "Throttle", "Gross Thrust", "Ram Drag", "Fuel Flow", "NOx Rate"]
  | .gasp =>
    ["Mach Number", "Altitude", "Throttle", "Thrust", "Fuel Flow"] ++
      (if isThrottle t4max ty then [] else ["T4"])
  | .gaspTs =>
    ["Mach Number", "Altitude", "Throttle", "Shaft Power Corrected", "Tailpipe Thrust", "Fuel Flow"] ++
      (if isThrottle t4max ty then [] else ["T4"])

/-- The columns marked as outputs (`aviary/utils/engine_deck_conversion.py:67-76`). -/
def outputs : List String :=
  ["Thrust", "Gross Thrust", "Ram Drag", "Fuel Flow", "NOx Rate", "T4", "Shaft Power Corrected",
    "Tailpipe Thrust"]

/-- What is known of a path: whether it exists and whether it is a file.
Part of the model of aviary/utils/engine_deck_conversion.py:124-138. -/
structure FS where
  isThere : String → Bool
  isFile : String → Bool
  resource : String → String

/-- The errors of the search for the input. Part of the model of aviary/utils/engine_deck_conversion.py:129-138. -/
inductive Fault
  | notFound | notFile
  deriving DecidableEq, Repr

/-- The file that is read (`aviary/utils/engine_deck_conversion.py:117-138`). -/
def source (fs : FS) (name : String) : Except Fault String :=
  let p := if fs.isThere name then name else fs.resource name
  if fs.isThere p then (if fs.isFile p then .ok p else .error .notFile) else .error .notFound

/-- The name of the output, when none is given, from stem and suffix of the input
(`aviary/utils/engine_deck_conversion.py:356-362`). -/
def outName (stem suffix : List Char) : List Char :=
  stem ++ (if suffix = ".csv".toList then "_aviary.csv".toList else ".csv".toList)

end Verif.GaspIdle
