import Mathlib.Data.Rat.Defs
import Mathlib.Algebra.Order.Ring.Rat

/-!
# Checks and defaults taken from the phase options

* `AviaryGroup.check_and_preprocess_inputs`, aviary/core/aviary_group.py:408-451 (durations and initial guesses),
  485-505 (tabular aerodynamics, geometry method).
* `set_phase_options` of the energy-state and 2DOF configurators, aviary/mission/energy_state_problem_configurator.py:
  153-224 and aviary/mission/two_dof_problem_configurator.py:201-307.
* `check_trajectory`, aviary/mission/energy_state_problem_configurator.py:250-289.

Numbers are rationals.
-/

namespace Verif.PhaseInfo

/-! ## Durations and guesses -/

/-- Errors. Part of the model of aviary/core/aviary_group.py:423-451. -/
inductive Err
  | valueError
  | typeError
  /-- units that cannot be converted into each other -/
  | unitError
deriving DecidableEq

/-- The entries of a phase that are read or written. `userOptions = none`: the phase has no `user_options`.
Part of the model of aviary/core/aviary_group.py:411-419. -/
structure UserOpts where
  /-- `target_distance`, when the key is there -/
  targetDistance : Option (Option ℚ × String)
  /-- `time_duration`, when the key is there -/
  timeDuration : Option (Option ℚ × String)
deriving DecidableEq

/-- The initial guesses of a phase: that for `time` (start, duration, units) and the names of the others.
Part of the model of aviary/core/aviary_group.py:411-419. -/
structure Guesses where
  time : Option ((Option ℚ × Option ℚ) × String)
  others : List (String × ℚ)
deriving DecidableEq

/-- One phase of `mission_info`. Part of the model of aviary/core/aviary_group.py:411-419. -/
structure PInfo where
  name : String
  userOptions : Option UserOpts
  guesses : Option Guesses
deriving DecidableEq

/-- aviary/core/aviary_group.py:411-419, the check of one phase. The default is `(None, 'm')`. -/
def targetOk (p : PInfo) : Bool :=
  match p.userOptions with
  | none => true
  | some u => match u.targetDistance with
    | some (some d, _) => decide (¬d ≤ 0)
    | _ => true

/-- aviary/core/aviary_group.py:423-451 for one phase. `conv u v` is the factor from units `u` to units `v`. For a duration that is
not positive the text of the `ValueError` is built with `time_duration[0]`, and indexing a number is a `TypeError`. -/
def setDuration (conv : String → String → Option ℚ) (p : PInfo) : Except Err PInfo :=
  match p.userOptions with
  | none => .ok p
  | some u => match u.timeDuration with
    | none => .ok p
    | some (none, _) => .ok p
    | some (some d, units) =>
      if d ≤ 0 then .error .typeError
      else
        let g := p.guesses.getD ⟨none, []⟩
        match g.time with
        | none => .ok { p with guesses := some { g with time := some ((none, some d), units) } }
        | some ((start, _), gu) =>
          match conv units gu with
          | none => .error .unitError
          | some f => .ok { p with guesses := some { g with time := some ((start, some (d * f)), gu) } }

/-- The second loop over the phases. Part of the model of aviary/core/aviary_group.py:408-451. -/
def setDurations (conv : String → String → Option ℚ) : List PInfo → Except Err (List PInfo)
  | [] => .ok []
  | p :: ps => match setDuration conv p with
    | .error e => .error e
    | .ok q => match setDurations conv ps with
      | .error e => .error e
      | .ok qs => .ok (q :: qs)

/-- aviary/core/aviary_group.py:408-451 -/
def preprocess (conv : String → String → Option ℚ) (ps : List PInfo) : Except Err (List PInfo) :=
  if ps.all targetOk then setDurations conv ps else .error .valueError

/-! ## Tabular aerodynamics -/

/-- `a in b` for texts given as lists of characters. Part of the model of aviary/core/aviary_group.py:485-496. -/
def isIn (a : List Char) : List Char → Bool
  | [] => a.isEmpty
  | c :: b => a.isPrefixOf (c :: b) || isIn a b

/-- `'tabular' in method`. Part of the model of aviary/core/aviary_group.py:485-496. -/
def hasTabular (method : String) : Bool := isIn "tabular".toList method.toList

/-- aviary/core/aviary_group.py:485-496. The list has the aerodynamics method of every phase that is not `pre_mission` or
`post_mission`, `none` where one of the keys is missing. -/
def tabularLoop : Bool → List (Option String) → Bool
  | t, [] => t
  | _, none :: ms => tabularLoop false ms
  | t, some m :: ms => tabularLoop (if hasTabular m then true else t) ms

/-- The flag handed to the aerodynamics builder. Part of the model of aviary/core/aviary_group.py:485-496. -/
def tabular (ms : List (Option String)) : Bool := tabularLoop false ms

/-- Legacy codes. Part of the model of aviary/core/aviary_group.py:502-510. -/
inductive Code | flops | gasp
deriving DecidableEq

/-- aviary/core/aviary_group.py:502-510: the geometry methods used. -/
def geomOrigin (aero mass : Option Code) : List Code :=
  if aero = some .flops ∧ mass = some .flops then [.flops]
  else if aero = some .gasp ∧ mass = some .gasp then [.gasp]
  else [.flops, .gasp]

/-! ## Time options -/

/-- The time options of a phase, in seconds. `None` is `none`.
Part of the model of aviary/mission/energy_state_problem_configurator.py:188-195. -/
structure TimeIn where
  initial : Option ℚ
  duration : Option ℚ
  initialBounds : Option ℚ × Option ℚ
  durationBounds : Option ℚ × Option ℚ
  initialRef : Option ℚ
  durationRef : Option ℚ

/-- The arguments of `set_time_options`; an outer `none` is an argument that is not given.
Part of the model of aviary/mission/energy_state_problem_configurator.py:173-224. -/
structure TimeOut where
  fixInitial : Bool
  fixDuration : Bool
  initialRef : Option (Option ℚ)
  initialBounds : Option (Option ℚ × Option ℚ)
  durationBounds : Option (Option ℚ × Option ℚ)
  durationRef : Option (Option ℚ)
deriving DecidableEq

/-- Truth value of a number or `None`.
Part of the model of aviary/mission/energy_state_problem_configurator.py:188-195. -/
def truthy : Option ℚ → Bool
  | none => false
  | some q => decide (q ≠ 0)

/-- aviary/mission/energy_state_problem_configurator.py:188-195 -/
def energyInitialRef (t : TimeIn) : Option ℚ :=
  if t.initialRef = some 1 then (if truthy t.initialBounds.2 then t.initialBounds.2 else some 600) else t.initialRef

/-- aviary/mission/energy_state_problem_configurator.py:197-205 -/
def energyDurationRef (t : TimeIn) : Option ℚ :=
  if t.durationRef = some 1 then
    match t.durationBounds with
    | (none, none) => t.durationRef
    | (lo, hi) => some ((lo.getD 0 + hi.getD 0) / 2)
  else t.durationRef

/-- aviary/mission/energy_state_problem_configurator.py:173-224. `idx` is the position of the phase, `ranks` is `comm.size`. -/
def energyTime (idx ranks : ℕ) (t : TimeIn) : TimeOut :=
  let fixInitial := t.initial.isSome
  let fixDuration := t.duration.isSome
  let noInitial : Bool := (fixInitial || decide (idx > 0)) && decide (ranks = 1)
  { fixInitial := fixInitial
    fixDuration := fixDuration
    initialRef := if noInitial then none else some (energyInitialRef t)
    initialBounds := if noInitial then none else some t.initialBounds
    durationBounds := if fixDuration then none else some t.durationBounds
    durationRef := if fixDuration then none else some (energyDurationRef t) }

/-- aviary/mission/two_dof_problem_configurator.py:250-254 -/
def boundRef (t : TimeIn) : ℚ :=
  match t.initialBounds with
  | (some _, some u) => if u ≠ 0 then u else 600
  | _ => 600

/-- aviary/mission/two_dof_problem_configurator.py:256-258; adding a bound that is `None` raises `TypeError`. -/
def twoDofDurationRef (t : TimeIn) : Except Err (Option ℚ) :=
  match t.durationRef with
  | some r => .ok (some r)
  | none => match t.durationBounds with
    | (some lo, some hi) => .ok (some ((lo + hi) / 2))
    | _ => .error .typeError

/-- aviary/mission/two_dof_problem_configurator.py:238-290 for the phases integrated over time. -/
def twoDofTime (idx ranks : ℕ) (t : TimeIn) : Except Err TimeOut :=
  match twoDofDurationRef t with
  | .error e => .error e
  | .ok dref =>
    let fixInitial := t.initial.isSome
    let joined : Bool := fixInitial || decide (idx > 0)
    .ok { fixInitial := fixInitial
          fixDuration := t.duration.isSome
          initialRef := some (if joined then (if ranks > 1 then some (boundRef t) else none) else t.initialRef)
          initialBounds := if joined then none else some t.initialBounds
          durationBounds := some t.durationBounds
          durationRef := some dref }

/-- `np.mean` of a single number; `None` raises.
Part of the model of aviary/mission/energy_state_problem_configurator.py:521-532. -/
def npMean : Option ℚ → Except Err ℚ
  | none => .error .typeError
  | some q => .ok q

/-- aviary/mission/energy_state_problem_configurator.py:521-532: the guess for start and duration, in seconds. `given` is the guess of
the user, already in seconds. -/
def timeGuess (given : Option (Option ℚ × Option ℚ)) (t : TimeIn) : Except Err (Option ℚ × Option ℚ) :=
  match given with
  | some g => .ok g
  | none =>
    match (match t.initial with | some i => Except.ok i | none => npMean t.initialBounds.1) with
    | .error e => .error e
    | .ok i =>
      match (match t.duration with | some d => Except.ok d | none => npMean t.durationBounds.1) with
      | .error e => .error e
      | .ok d => .ok (some i, some d)

/-! ## Check of the boundary values -/

/-- A value with its units, as found in the options.
Part of the model of aviary/mission/energy_state_problem_configurator.py:276-285. -/
abbrev Pair := Option ℚ × String

/-- The boundary options of one phase: by stem, the initial and final value.
Part of the model of aviary/mission/energy_state_problem_configurator.py:276-285. -/
structure Ends where
  name : String
  initial : String → Pair
  final : String → Pair

/-- aviary/mission/energy_state_problem_configurator.py:262-267 -/
def stems : List String := ["mass", "distance", "mach", "altitude"]

/-- One line of the message: left phase, right phase, stem.
Part of the model of aviary/mission/energy_state_problem_configurator.py:276-285. -/
abbrev Issue := String × String × String

/-- aviary/mission/energy_state_problem_configurator.py:276-285 for two neighbouring phases. -/
def boundaryIssues (l r : Ends) : List Issue :=
  (stems.filter fun s => decide ((r.initial s).1 ≠ none ∧ (l.final s).1 ≠ none ∧ r.initial s ≠ l.final s)).map
    fun s => (l.name, r.name, s)

/-- aviary/mission/energy_state_problem_configurator.py:269-285 -/
def issues : List Ends → List Issue
  | l :: r :: ps => boundaryIssues l r ++ issues (r :: ps)
  | _ => []

/-- aviary/mission/energy_state_problem_configurator.py:287-289: what is printed; `verbosity` is compared with `QUIET = 0`. -/
def printed (verbosity : ℕ) (ps : List Ends) : Option (List Issue) :=
  if (issues ps).length > 0 ∧ verbosity > 0 then some (issues ps) else none

end Verif.PhaseInfo
