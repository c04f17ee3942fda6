import Verif.Model.PhaseInfo
import Mathlib.Data.List.Infix
import Mathlib.Data.Rat.Defs

/-!
# Initial guesses of the phases

Models of
* `process_guess_var`, aviary/mission/utils.py:80-121,
* `set_phase_initial_guesses` of the three problem configurators
  (aviary/mission/energy_state_problem_configurator.py:448-559, aviary/mission/solved_two_dof_problem_configurator.py:209-260,
  aviary/mission/two_dof_problem_configurator.py:433-557),
* `validate_initial_guesses`, `apply_initial_guesses`, `_add_initial_guess_meta_data` of the phase builder
  (aviary/mission/phase_builder.py:234-271, 353-367), `register` and `phase_info_to_builder` (:653-704), and the guess
  objects of aviary/mission/initial_guess_builders.py.

A guess is a value with units.  The calls on the phase and on the problem are recorded in order; a later call with the
same destination replaces the value of an earlier one.  Options are those after unit conversion.
-/

namespace Verif.InitGuess
open Verif.PhaseInfo (TimeIn timeGuess)

/-- The Python exceptions that are raised. Part of the model of aviary/mission/utils.py:80-121. -/
inductive Err | typeError | valueError | keyError | indexError
  deriving DecidableEq

/-- Value of a guess: a Python float, an integer, or a list, tuple or array whose entries may be `None`.
Part of the model of aviary/mission/energy_state_problem_configurator.py:448-559. -/
inductive GV
  | flt (q : ℚ)
  | int (n : ℤ)
  | list (l : List (Option ℚ))
  deriving DecidableEq

/-- A value as handed to the setter: as it is, or interpolated by the phase.
Part of the model of aviary/mission/energy_state_problem_configurator.py:448-559. -/
inductive SV
  | raw (v : GV)
  | interp (name : String) (xs : List ℚ) (ys : List (Option ℚ))
  | num (q : Option ℚ)
  deriving DecidableEq

/-- One guess `key: (val, units)`.
Part of the model of aviary/mission/energy_state_problem_configurator.py:448-559. -/
structure Guess where
  key : String
  val : GV
  units : String
  deriving DecidableEq

/-- Where a value goes: start and duration of the independent variable of the phase, a path inside of the phase
(`controls:<name>`, `states:<name>`, `parameters:<name>` or the key itself), or a variable of the problem.
Part of the model of aviary/mission/energy_state_problem_configurator.py:448-559. -/
inductive Dest
  | tInitial
  | tDuration
  | phase (rel : String)
  | prob (name : String)
  deriving DecidableEq

/-- One value set: destination, value and units.
Part of the model of aviary/mission/energy_state_problem_configurator.py:448-559. -/
structure Call where
  dest : Dest
  val : SV
  units : String
  deriving DecidableEq

/-! ## `process_guess_var` -/

/-- `np.linspace(-1, 1, num=n)` for `n > 1`. Part of the model of aviary/mission/utils.py:80-121. -/
def linspace (n : ℕ) : List ℚ := (List.range n).map fun i : ℕ => -1 + 2 * (i : ℚ) / ((n : ℚ) - 1)

/-- `':'.join(key.split(':')[1:])`: what follows the first colon.
Part of the model of aviary/mission/utils.py:80-121. -/
def stripKey (key : String) : String := String.ofList ((key.toList.dropWhile (· ≠ ':')).drop 1)

/-- `sub in key` for strings. Part of the model of aviary/mission/utils.py:80-121. -/
def contains (sub key : String) : Bool := decide (sub.toList <:+: key.toList)

/-- aviary/mission/utils.py:80-121. `len` of an integer raises `TypeError`. One-dimensional values only. -/
def processGuess (v : GV) (key : String) : Except Err SV :=
  match v with
  | .flt q => .ok (.raw (.flt q))
  | .int _ => .error .typeError
  | .list l =>
    if l.length > 1 then
      if contains "controls:" key || contains "states:" key then
        .ok (.interp (stripKey key) (linspace l.length) l)
      else .ok (.interp key (linspace l.length) l)
    else .ok (.raw (.list l))

/-! ## Energy-state missions -/

/-- The options read by the energy-state configurator.
Part of the model of aviary/mission/energy_state_problem_configurator.py:448-559. -/
structure EOpts where
  throttleControl : Bool
  altitudeInitial : Option ℚ := none
  altitudeFinal : Option ℚ := none
  altitudeLower : Option ℚ := none
  machInitial : Option ℚ := none
  machFinal : Option ℚ := none
  machLower : Option ℚ := none
  time : TimeIn

/-- `key in guess_dict`. Part of the model of aviary/mission/energy_state_problem_configurator.py:448-559. -/
def has (g : List Guess) (key : String) : Bool := g.any (fun x => x.key == key)

/-- `if key not in guess_dict: guess_dict[key] = …`.
Part of the model of aviary/mission/energy_state_problem_configurator.py:448-559. -/
def addDefault (g : List Guess) (d : Guess) : List Guess := if has g d.key then g else g ++ [d]

/-- The pair of aviary/mission/energy_state_problem_configurator.py:494-506 and 508-519: initial value, else the lower bound; final
value, else the initial one. -/
def endpoints (initial final lower : Option ℚ) : List (Option ℚ) :=
  let i := match initial with | some x => some x | none => lower
  let f := match final with | some x => some x | none => i
  [i, f]

/-- Lines 487-532: the guesses of the user with the defaults behind them.
Part of the model of aviary/mission/energy_state_problem_configurator.py:448-559. -/
def fillE (gross : ℚ) (o : EOpts) (g : List Guess) : Except Err (List Guess) :=
  let g := addDefault g ⟨"mass", .flt gross, "lbm"⟩
  let g := addDefault g ⟨"altitude", .list (endpoints o.altitudeInitial o.altitudeFinal o.altitudeLower), "ft"⟩
  let g := addDefault g ⟨"mach", .list (endpoints o.machInitial o.machFinal o.machLower), "unitless"⟩
  if has g "time" then .ok g
  else
    match timeGuess none o.time with
    | .error _ => .error .typeError
    | .ok t => .ok (g ++ [⟨"time", .list [t.1, t.2], "s"⟩])

/-- `val[i]`: a number raises `TypeError`, a short list `IndexError`.
Part of the model of aviary/mission/energy_state_problem_configurator.py:448-559. -/
def idx (v : GV) (i : ℕ) : Except Err (Option ℚ) :=
  match v with
  | .flt _ => .error .typeError
  | .int _ => .error .typeError
  | .list l => match l[i]? with | some x => .ok x | none => .error .indexError

/-- `set_time_val(initial=val[0], duration=val[1], units=units)`.
Part of the model of aviary/mission/energy_state_problem_configurator.py:448-559. -/
def timeCalls (g : Guess) : Except Err (List Call) :=
  match idx g.val 0 with
  | .error e => .error e
  | .ok a => match idx g.val 1 with
    | .error e => .error e
    | .ok b => .ok [⟨.tInitial, .num a, g.units⟩, ⟨.tDuration, .num b, g.units⟩]

/-- Lines 481-487. Part of the model of aviary/mission/energy_state_problem_configurator.py:448-559. -/
def eControls (o : EOpts) : List String := ["mach", "altitude"] ++ (if o.throttleControl then ["throttle"] else [])

/-- Lines 482-483. Part of the model of aviary/mission/energy_state_problem_configurator.py:448-559. -/
def eStates : List String := ["mass", "distance"]

/-- `probKeys`: part of the model of aviary/mission/energy_state_problem_configurator.py:448-559. -/
def probKeys : List String := ["tau_gear", "tau_flaps"]

/-- Lines 534-572, one guess. Part of the model of aviary/mission/energy_state_problem_configurator.py:448-559. -/
def applyE (pre : String) (o : EOpts) (g : Guess) : Except Err (List Call) :=
  if g.key = "time" then timeCalls g
  else if g.key ∈ eControls o then .ok [⟨.phase ("controls:" ++ g.key), .raw g.val, g.units⟩]
  else if g.key ∈ eStates then .ok [⟨.phase ("states:" ++ g.key), .raw g.val, g.units⟩]
  else if g.key ∈ probKeys then .ok [⟨.prob (pre ++ g.key), .raw g.val, g.units⟩]
  else if ':' ∈ g.key.toList then
    match processGuess g.val g.key with
    | .error e => .error e
    | .ok v => .ok [⟨.phase g.key, v, g.units⟩]
  else .error .valueError

/-- The loop over the guesses: the calls in order, the first error ends it.
Part of the model of aviary/mission/energy_state_problem_configurator.py:448-559. -/
def loop (f : Guess → Except Err (List Call)) : List Guess → Except Err (List Call)
  | [] => .ok []
  | g :: gs =>
    match f g with
    | .error e => .error e
    | .ok cs => match loop f gs with
      | .error e => .error e
      | .ok ds => .ok (cs ++ ds)

/-- aviary/mission/energy_state_problem_configurator.py:448-559. -/
def energyGuesses (pre : String) (gross : ℚ) (o : EOpts) (g : List Guess) : Except Err (List Call) :=
  match fillE gross o g with
  | .error e => .error e
  | .ok g => loop (applyE pre o) g

/-! ## Two-degree-of-freedom missions -/

/-- aviary/mission/two_dof_problem_configurator.py:459-484, one guess of a Breguet cruise. -/
def applyB (g : Guess) : Except Err (List Call) :=
  if g.key = "mass" then timeCalls g
  else if g.key = "time" then .ok []
  else .ok [⟨.phase ("parameters:" ++ g.key), .raw g.val, g.units⟩]

/-- Lines 489-502. Part of the model of aviary/mission/two_dof_problem_configurator.py:433-557. -/
def tControls (ascent : Bool) : List String := ["velocity_rate", "throttle"] ++ (if ascent then ["angle_of_attack"] else [])

/-- `tStates`: part of the model of aviary/mission/two_dof_problem_configurator.py:433-557. -/
def tStates : List String := ["altitude", "mass", "distance", "velocity", "flight_path_angle", "angle_of_attack"]

/-- A processed value at a destination.
Part of the model of aviary/mission/two_dof_problem_configurator.py:433-557. -/
def processed (d : Dest) (g : Guess) : Except Err (List Call) :=
  match processGuess g.val g.key with
  | .error e => .error e
  | .ok v => .ok [⟨d, v, g.units⟩]

/-- Lines 506-546, one guess. In the ascent the time goes to the promoted variables.
Part of the model of aviary/mission/two_dof_problem_configurator.py:433-557. -/
def applyT (pre : String) (ascent : Bool) (g : Guess) : Except Err (List Call) :=
  if g.key = "time" then
    match timeCalls g with
    | .error e => .error e
    | .ok cs =>
      if ascent then
        .ok (cs.map fun c => { c with dest := match c.dest with
          | .tInitial => .prob "mission:takeoff:ascent_t_initial"
          | .tDuration => .prob "mission:takeoff:ascent_duration"
          | d => d })
      else .ok cs
  else if g.key ∈ tControls ascent then processed (.phase ("controls:" ++ g.key)) g
  else if g.key ∈ tStates then processed (.phase ("states:" ++ g.key)) g
  else if g.key ∈ probKeys then .ok [⟨.prob (pre ++ g.key), .raw g.val, g.units⟩]
  else if ':' ∈ g.key.toList then processed (.phase g.key) g
  else .error .valueError

/-- aviary/mission/two_dof_problem_configurator.py:433-557. `rotation` is `initialization_guesses['rotation_mass']`. -/
def twoDofGuesses (pre : String) (breguet ascent : Bool) (rotation : ℚ) (g : List Guess) : Except Err (List Call) :=
  if breguet then loop applyB g
  else
    match loop (applyT pre ascent) g with
    | .error e => .error e
    | .ok cs =>
      if has g "mass" then .ok cs
      else .ok (cs ++ [⟨.phase "states:mass", .raw (.flt rotation), "lbm"⟩])

/-! ## Solved two-degree-of-freedom missions -/

/-- `guesses[key] = …`: replace in place, or append.
Part of the model of aviary/mission/solved_two_dof_problem_configurator.py:209-260. -/
def setGuess (g : List Guess) (d : Guess) : List Guess :=
  if has g d.key then g.map (fun x => if x.key = d.key then d else x) else g ++ [d]

/-- aviary/mission/solved_two_dof_problem_configurator.py:248-260, one guess: skipped if one of the first two entries is `None`. -/
def applyS (g : Guess) : Except Err (List Call) :=
  match idx g.val 0 with
  | .error e => .error e
  | .ok none => .ok []
  | .ok (some _) => match idx g.val 1 with
    | .error e => .error e
    | .ok none => .ok []
    | .ok (some _) =>
      if g.key ∈ ["mach", "altitude"] then processed (.phase ("controls:" ++ g.key)) g else .ok []

/-- Endpoints of Mach number and altitude.
Part of the model of aviary/mission/solved_two_dof_problem_configurator.py:209-260. -/
structure SOpts where
  altitudeInitial : Option ℚ := none
  altitudeFinal : Option ℚ := none
  machInitial : Option ℚ := none
  machFinal : Option ℚ := none

/-- aviary/mission/solved_two_dof_problem_configurator.py:209-260. -/
def solvedGuesses (o : SOpts) (g : List Guess) : Except Err (List Call) :=
  let g := setGuess g ⟨"mach", .list [o.machInitial, o.machFinal], "unitless"⟩
  let g := setGuess g ⟨"altitude", .list [o.altitudeInitial, o.altitudeFinal], "ft"⟩
  loop applyS g

/-! ## Guesses held by the phase builders -/

/-- The classes of aviary/mission/initial_guess_builders.py. -/
inductive Kind | plain | control | parameter | polynomialControl | state | integration
  deriving DecidableEq

/-- `_initial_guesses_meta_data_`: names with their kinds, in order.
Part of the model of aviary/mission/phase_builder.py:353-367. -/
abbrev Meta := List (String × Kind)

/-- aviary/mission/phase_builder.py:353-367: a repeated name replaces the former entry. -/
def addMeta (m : Meta) (name : String) (k : Kind) : Meta :=
  if m.any (fun e => e.1 == name) then m.map (fun e => if e.1 = name then (name, k) else e) else m ++ [(name, k)]

/-- aviary/mission/phase_builder.py:234-251. -/
def validate (m : Meta) (g : List Guess) : Except Err Unit :=
  if g.all (fun x => m.any (fun e => e.1 == x.key)) then .ok () else .error .typeError

/-- `_get_complete_key` inside of the phase, aviary/mission/initial_guess_builders.py:64-144. -/
def completeKey (k : Kind) (name : String) : Dest :=
  match k with
  | .plain => .prob name
  | .control => .phase ("controls:" ++ name)
  | .parameter => .phase ("parameters:" ++ name)
  | .polynomialControl => .phase ("controls:" ++ name)
  | .state => .phase ("states:" ++ name)
  | .integration => .tInitial

/-- `apply_initial_guess`, aviary/mission/initial_guess_builders.py:45-62 and 166-176. A sequence is interpolated; the integration
variable unpacks a pair. -/
def applyKind (k : Kind) (g : Guess) : Except Err (List Call) :=
  match k with
  | .integration =>
    match g.val with
    | .list [a, b] => .ok [⟨.tInitial, .num a, g.units⟩, ⟨.tDuration, .num b, g.units⟩]
    | .list _ => .error .valueError
    | _ => .error .typeError
  | k =>
    match g.val with
    | .list l => .ok [⟨completeKey k g.key, .interp g.key [] l, g.units⟩]
    | v => .ok [⟨completeKey k g.key, .raw v, g.units⟩]

/-- aviary/mission/phase_builder.py:253-271: the calls made and the names without a guess. -/
def applyAll (g : List Guess) : Meta → Except Err (List Call × List String)
  | [] => .ok ([], [])
  | (name, k) :: m =>
    match g.find? (fun x => x.key == name) with
    | none => match applyAll g m with
      | .error e => .error e
      | .ok r => .ok (r.1, name :: r.2)
    | some x => match applyKind k x with
      | .error e => .error e
      | .ok cs => match applyAll g m with
        | .error e => .error e
        | .ok r => .ok (cs ++ r.1, r.2)

/-! ## The registry of builder types -/

/-- aviary/mission/phase_builder.py:653-676 with `check_repeats=True`. -/
def register (types : List String) (t : String) : Except Err (List String) :=
  if t ∈ types then .error .valueError else .ok (types ++ [t])

/-- `from_phase_info` of a type, aviary/mission/phase_builder.py:308-351: `KeyError` without user options, otherwise a
builder of that type (or the error of its constructor, `build t`). -/
def fromPhaseInfo (build : String → Except Err String) (userOptions : Bool) (t : String) : Except Err (Option String) :=
  if userOptions then (build t).map some else .error .keyError

/-- aviary/mission/phase_builder.py:678-704. -/
def phaseInfoToBuilder (build : String → Except Err String) (userOptions : Bool) : List String → Except Err String
  | [] => .error .valueError
  | t :: ts =>
    match fromPhaseInfo build userOptions t with
    | .error e => .error e
    | .ok (some b) => .ok b
    | .ok none => phaseInfoToBuilder build userOptions ts

end Verif.InitGuess
