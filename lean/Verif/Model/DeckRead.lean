import Verif.Model.EngineDeck

/-!
# Model of `EngineDeck._read_data` (data in memory) and `EngineDeck._sort_data`

aviary/subsystems/propulsion/engine_deck.py:340-417 and 1536-1575.  Numbers are rationals, units are strings and the conversion of
units is a parameter.
-/

namespace Verif.DeckRead

open Verif

/-- A key of the table given by the user: a text or a member of the enum, aviary/subsystems/propulsion/engine_deck.py:365-376. -/
inductive Key
  | text (s : String)
  | enum (v : EVar)
  deriving DecidableEq

/-- `aliases`, aviary/subsystems/propulsion/engine_deck.py:70-94. -/
def aliases : List (EVar × List String) :=
  [(.mach, ["m", "mn", "mach", "mach_number"]),
   (.altitude, ["altitude", "alt", "h"]),
   (.throttle, ["throttle", "power_code", "pc"]),
   (.hybridThrottle, ["hybrid_throttle", "hpc", "hybrid_power_code", "electric_throttle"]),
   (.thrust, ["thrust", "net_thrust"]),
   (.grossThrust, ["gross_thrust"]),
   (.ramDrag, ["ram_drag"]),
   (.fuelFlow, ["fuel", "fuel_flow", "fuel_flow_rate"]),
   (.electricPowerIn, ["electric_power_in", "electric_power"]),
   (.noxRate, ["nox", "nox_rate"]),
   (.t4, ["t4", "temp", "temperature", "temperature_t4", "t4_temperature"]),
   (.shaftPower, ["shaft_power", "shp"]),
   (.shaftPowerCorrected, ["shaft_power_corrected", "shpcor", "corrected_horsepower"]),
   (.tailpipeThrust, ["tailpipe_thrust"]),
   (.rpm, ["rpm", "rotations_per_minute"])]

/-- The reverse lookup of a name, aviary/subsystems/propulsion/engine_deck.py:370-374: the first entry that lists the name. -/
def lookup : List (EVar × List String) → String → Option EVar
  | [], _ => none
  | (v, ns) :: rest, s => if s ∈ ns then some v else lookup rest s

/-- The lookup of a key: members of the enum are in no list of aliases, aviary/subsystems/propulsion/engine_deck.py:370-374. -/
def aliasOf : Key → Option EVar
  | .text s => lookup aliases s
  | .enum _ => none

/-- The table: values and units by key (`NamedValues`), aviary/subsystems/propulsion/engine_deck.py:340. -/
abbrev Table := Dict Key (List ℚ × String)

/-- `alias_dict`, aviary/subsystems/propulsion/engine_deck.py:364-374. -/
def aliasDict (t : Table) : List (Key × EVar) :=
  t.filterMap fun e => (aliasOf e.1).map fun v => (e.1, v)

/-- One renaming, aviary/subsystems/propulsion/engine_deck.py:378-380. -/
def renameOne (t : Table) (p : Key × EVar) : Table :=
  match Dict.get? t p.1 with
  | none => t
  | some x => Dict.set (Dict.erase t p.1) (.enum p.2) x

/-- The table after the renaming (the user's object is changed in place), aviary/subsystems/propulsion/engine_deck.py:362-380. -/
def rename (t : Table) : Table := (aliasDict t).foldl renameOne t

/-- Whether a key is one of `aliases`, aviary/subsystems/propulsion/engine_deck.py:386. -/
def known : Key → Bool
  | .text _ => false
  | .enum v => (aliases.map Prod.fst).contains v

/-- What the reading leaves in the deck: `engine_variables` (names) and `_original_data`,
aviary/subsystems/propulsion/engine_deck.py:382-411. -/
structure Read where
  vars : List EVar
  orig : Dict Key (List ℚ)

/-- One round of the loop over the table, aviary/subsystems/propulsion/engine_deck.py:384-411; `conv units v` converts a number
from the given units to the default units of `v`, `none` when the units do not fit. -/
def readStep (conv : String → EVar → Option (ℚ → ℚ)) (s : Except Err Read) (e : Key × (List ℚ × String)) : Except Err Read :=
  match s with
  | .error x => .error x
  | .ok r =>
    match e.1 with
    | .text _ => .ok { r with orig := Dict.set r.orig e.1 e.2.1 }
    | .enum v =>
      if known (.enum v) then
        match conv e.2.2 v with
        | none => .error .typeError
        | some f => .ok { vars := r.vars ++ [v], orig := Dict.set r.orig e.1 (e.2.1.map f) }
      else .ok { r with orig := Dict.set r.orig e.1 e.2.1 }

/-- `_read_data` with data from memory, aviary/subsystems/propulsion/engine_deck.py:340-417: the variables and the working data. -/
def readData (conv : String → EVar → Option (ℚ → ℚ)) (t : Table) : Except Err (List EVar × (EVar → List ℚ)) :=
  match (rename t).foldl (readStep conv) (.ok ⟨[], EVar.all.map fun v => (Key.enum v, [])⟩) with
  | .error x => .error x
  | .ok r => if r.vars = [] then .error .userWarning else .ok (r.vars, fun v => (Dict.get? r.orig (.enum v)).getD [])

/-! ## Sorting -/

/-- Lexicographic comparison of two lists of keys, as done by `np.lexsort`, aviary/subsystems/propulsion/engine_deck.py:1568. -/
def lexLe : List ℚ → List ℚ → Bool
  | a :: as, b :: bs => if a < b then true else if b < a then false else lexLe as bs
  | _, _ => true

/-- The four sorting keys of a point, most important first (`np.lexsort` takes the last key first),
aviary/subsystems/propulsion/engine_deck.py:1550-1566. -/
def sortVars (sortAlt : Bool) : List EVar :=
  if sortAlt then [.altitude, .mach, .throttle, .hybridThrottle] else [.mach, .altitude, .throttle, .hybridThrottle]

/-- Entry `i` of a column. Part of the model of aviary/subsystems/propulsion/engine_deck.py:1550-1572. -/
def entry (cols : Dict EVar (List ℚ)) (v : EVar) (i : ℕ) : ℚ := ((Dict.get? cols v).getD []).getD i 0

/-- The keys of point `i`, aviary/subsystems/propulsion/engine_deck.py:1550-1566. -/
def keyAt (sortAlt : Bool) (cols : Dict EVar (List ℚ)) (i : ℕ) : List ℚ := (sortVars sortAlt).map fun v => entry cols v i

/-- `np.lexsort(sort_keys)` (a stable sort of the indices), aviary/subsystems/propulsion/engine_deck.py:1568. -/
def order (sortAlt : Bool) (cols : Dict EVar (List ℚ)) (n : ℕ) : List ℕ :=
  (List.range n).mergeSort fun i j => lexLe (keyAt sortAlt cols i) (keyAt sortAlt cols j)

/-- `_sort_data`, aviary/subsystems/propulsion/engine_deck.py:1536-1575: columns of different lengths make no array (`ValueError`),
a missing key column is a `KeyError`. -/
def sortData (sortAlt : Bool) (cols : Dict EVar (List ℚ)) : Except Err (Dict EVar (List ℚ)) :=
  match cols with
  | [] => .error .keyError
  | (_, c) :: _ =>
    if cols.all fun e => e.2.length = c.length then
      if (sortVars sortAlt).all fun v => Dict.has cols v then
        .ok (cols.map fun e => (e.1, (order sortAlt cols c.length).map fun i => e.2.getD i 0))
      else .error .keyError
    else .error .valueError

end Verif.DeckRead
