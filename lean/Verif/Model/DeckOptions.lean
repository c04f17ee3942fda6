import Verif.Model.PropMission
import Mathlib.Data.Rat.Defs
import Mathlib.Algebra.Order.Ring.Unbundled.Rat

/-!
# Options of an engine deck

Hand-written model of `build_engine_deck`, aviary/subsystems/propulsion/utils.py:135-219, and of the options and the steps of `EngineDeck`,
aviary/subsystems/propulsion/engine_deck.py:94-338. Units are left out; texts, numbers and flags are the values of options.
-/

namespace Verif.DeckOptions
open Verif.PropMission (Val Box)

/-- A scalar option, aviary/subsystems/propulsion/engine_deck.py:97-115. -/
inductive V | flag (b : Bool) | num (x : ℚ) | text (s : String) | nothing
  deriving DecidableEq, Repr

/-! ### Gathering -/

/-- One value of the aircraft made one of an engine, aviary/subsystems/propulsion/utils.py:187-202. `IndexError` of an empty container is not
caught. -/
def pick {ν : Type} : Val ν → Except Err (Val ν)
  | .scalar x => .ok (.scalar x)
  | .seq _ [] => .error .indexError
  | .seq b (x :: xs) => .ok (if x.isSeq || xs.isEmpty then x else .seq b (x :: xs))

/-- The loop over the variables of `Aircraft.Engine`, aviary/subsystems/propulsion/utils.py:165-202: variables without meta data and
variables without a value are skipped. The classes nested in `Aircraft.Engine` are no variables and have no meta data. -/
def gather {ν : Type} (md : String → Bool) (opts : Dict String (Val ν)) : List String → Except Err (Dict String (Val ν))
  | [] => .ok []
  | k :: l =>
    match md k, opts.get? k with
    | true, some v => do
      let w ← pick v
      let r ← gather md opts l
      .ok ((k, w) :: r)
    | _, _ => gather md opts l

/-- The name of the deck, aviary/subsystems/propulsion/utils.py:208-212; `stem` is `Path(...).stem`, which takes a text only. -/
def deckName (stem : String → String) (name : Option String) (o : Dict String (Val V)) : Except Err String :=
  match name with
  | some n => .ok n
  | none =>
    match o.get? "aircraft:engine:data_file" with
    | none => .error .keyError
    | some (.scalar (.text s)) => .ok (stem s)
    | some _ => .error .typeError

/-- The scalar options; lists are the business of the check of the parent class, aviary/subsystems/propulsion/engine_model.py:145-205, and are
left out here, aviary/subsystems/propulsion/engine_deck.py:226-228. -/
def scalars : Dict String (Val V) → Dict String V
  | [] => []
  | (k, .scalar v) :: d => (k, v) :: scalars d
  | (_, .seq _ _) :: d => scalars d

/-! ### Defaults and checks -/

/-- `required_options`, aviary/subsystems/propulsion/engine_deck.py:99-105. -/
def required : List String :=
  ["aircraft:engine:ignore_negative_thrust", "aircraft:engine:geopotential_alt", "aircraft:engine:generate_flight_idle",
    "aircraft:engine:interpolation_method", "aircraft:engine:interpolation_sort"]

/-- `dependent_options` of the flight idle, aviary/subsystems/propulsion/engine_deck.py:108-114. -/
def dependent : List String :=
  ["aircraft:engine:flight_idle_thrust_fraction", "aircraft:engine:flight_idle_min_fraction",
    "aircraft:engine:flight_idle_max_fraction"]

/-- Missing options get the default of the meta data, aviary/subsystems/propulsion/engine_deck.py:234-246, 250-255. -/
def fill (md : String → Option V) : List String → Dict String V → Except Err (Dict String V)
  | [], o => .ok o
  | k :: l, o =>
    match o.get? k with
    | some _ => fill md l o
    | none =>
      match md k with
      | none => .error .keyError
      | some d => fill md l (o.set k d)

/-- Defaults of the meta data, aviary/variable_info/variable_meta_data.py:1991-2214. -/
def core : String → Option V
  | "aircraft:engine:data_file" => some .nothing
  | "aircraft:engine:ignore_negative_thrust" => some (.flag false)
  | "aircraft:engine:geopotential_alt" => some (.flag false)
  | "aircraft:engine:generate_flight_idle" => some (.flag false)
  | "aircraft:engine:interpolation_method" => some (.text "slinear")
  | "aircraft:engine:interpolation_sort" => some (.text "mach")
  | "aircraft:engine:flight_idle_thrust_fraction" => some (.num 0)
  | "aircraft:engine:flight_idle_min_fraction" => some (.num (8/100))
  | "aircraft:engine:flight_idle_max_fraction" => some (.num 1)
  | "aircraft:engine:global_throttle" => some (.flag false)
  | "aircraft:engine:global_hybrid_throttle" => some (.flag false)
  | _ => none

/-- Truth of a value, aviary/subsystems/propulsion/engine_deck.py:250, 258. -/
def truthy : V → Bool
  | .flag b => b
  | .num x => x != 0
  | .text s => s != ""
  | .nothing => false

/-- Names warned about: missing ones at a verbosity above brief, aviary/subsystems/propulsion/engine_deck.py:238-243. -/
def warned (verb : ℕ) (keys : List String) (o : Dict String V) : List String :=
  if verb > 1 then keys.filter fun k => !o.has k else []

/-- `additional_options + required_options`, aviary/subsystems/propulsion/engine_deck.py:229-234. -/
def wanted (file : Bool) : List String := (if file then ["aircraft:engine:data_file"] else []) ++ required

/-- `idle_min > idle_max`, aviary/subsystems/propulsion/engine_deck.py:258-267. -/
def idleCheck (o : Dict String V) : Except Err Unit :=
  match o.get? "aircraft:engine:flight_idle_min_fraction", o.get? "aircraft:engine:flight_idle_max_fraction" with
  | some (.num a), some (.num b) => if a > b then .error .userWarning else .ok ()
  | some _, some _ => .error .typeError
  | _, _ => .error .keyError

/-- `INTERPOLATION_SORT`, aviary/subsystems/propulsion/engine_deck.py:269-276. -/
def sortCheck (o : Dict String V) : Except Err Unit :=
  match o.get? "aircraft:engine:interpolation_sort" with
  | none => .error .keyError
  | some v => if v = .text "mach" ∨ v = .text "altitude" then .ok () else .error .valueError

/-- Whether flight idle is generated, aviary/subsystems/propulsion/engine_deck.py:250, 258, 337. -/
def generates (o : Dict String V) : Bool := ((o.get? "aircraft:engine:generate_flight_idle").map truthy).getD false

/-- `_preprocess_inputs` of the deck, aviary/subsystems/propulsion/engine_deck.py:213-276. -/
def preprocess (md : String → Option V) (file : Bool) (o : Dict String V) : Except Err (Dict String V) := do
  let o ← fill md (wanted file) o
  let o ← if generates o then fill md dependent o else .ok o
  if generates o then idleCheck o
  sortCheck o
  .ok o

/-! ### Construction -/

/-- The two throttle options, aviary/subsystems/propulsion/engine_deck.py:191-206: they are looked up in the argument, which is `None` by
default. -/
def throttles (md : String → Option V) (arg : Option (Dict String V)) (o : Dict String V) : Except Err (Dict String V) :=
  match arg with
  | none => .error .typeError
  | some a =>
    ["aircraft:engine:global_throttle", "aircraft:engine:global_hybrid_throttle"].foldlM (init := o) fun o k =>
      if a.has k then .ok o
      else match md k with
        | none => .error .keyError
        | some d => .ok (o.set k d)

/-- Steps of `_setup`, aviary/subsystems/propulsion/engine_deck.py:308-338. -/
inductive Step | read | check | convert | warn | pack | reference | normalize | idle
  deriving DecidableEq, Repr

/-- `_setup`: the steps in their order, aviary/subsystems/propulsion/engine_deck.py:308-338; `earth` tells the planet of an atmosphere model. -/
def setup (earth : V → Bool) (useThrust : Bool) (o : Dict String V) : Except Err (List Step) := do
  let geo ← match o.get? "aircraft:engine:geopotential_alt" with
    | none => .error .keyError
    | some g =>
      if truthy g then
        match o.get? "settings:atmosphere_model" with
        | none => .error .keyError
        | some m => .ok [if earth m then Step.convert else .warn]
      else .ok []
  .ok ([.read, .check] ++ geo ++ [.pack] ++ (if useThrust then [.reference] else []) ++ [.normalize] ++
    if generates o then [.idle] else [])

/-- `update` of an engine model calls `_setup(**kwargs)`, which needs `data`, aviary/subsystems/propulsion/engine_model.py:207-211,
aviary/subsystems/propulsion/engine_deck.py:298; `passed` tells whether the caller gives it. -/
def update (earth : V → Bool) (useThrust passed : Bool) (o : Dict String V) : Except Err (List Step) :=
  if passed then setup earth useThrust o else .error .typeError

/-- `build_engine_deck` and the construction of the deck: the variables of the engine are gathered, the deck is named, options are completed and
checked, and the data are set up, aviary/subsystems/propulsion/utils.py:135-219, aviary/subsystems/propulsion/engine_deck.py:148-211. The deck
gets the default meta data, whatever `hasMd` is given. -/
def build (stem : String → String) (earth : V → Bool) (useThrust : Bool) (hasMd : String → Bool) (vars : List String) (name : Option String)
    (opts : Dict String (Val V)) : Except Err (String × List Step) := do
  let g ← gather hasMd opts vars
  let n ← deckName stem name g
  let p ← preprocess core true (scalars g)
  let t ← throttles core (some (scalars g)) p
  let st ← setup earth useThrust t
  .ok (n, st)

end Verif.DeckOptions
