import Mathlib.Data.String.Basic
import Mathlib.Data.List.Sort
import Mathlib.Data.Rat.Defs
import Mathlib.Algebra.Order.Ring.Rat

/-!
# Linking the phases of a trajectory

`AviaryGroup.link_phases` and `AviaryGroup._find_scaling`, aviary/core/aviary_group.py:944-1179. The calls made on the
dymos trajectory are recorded as a list of actions. Option values are rationals with a unit string; the sets of
variable names are lists, and the iteration order of the sets is the order of the lists. The connections of the last
main phase to `state_output` (aviary/core/aviary_group.py:958-975) and the bus connections (953-954) are left out here.
-/

namespace Verif.LinkPhases

/-- The `user_options` of a phase. A key that is missing has no flag, and `(None, None)` as its pair, which is the
default used in all lookups with units (aviary/core/aviary_group.py:1044-1045, 1155-1165). -/
structure Opts where
  /-- options with a plain truth value -/
  flag : String → Option Bool
  /-- options with a value and units -/
  pair : String → Option ℚ × Option String

/-- One entry of `phase_objects` with its linkable variables (`link_vars_dict`, aviary/core/aviary_group.py:989-1007) and the
dymos phase built from it. -/
structure Phase where
  name : String
  /-- the set of linkable variables -/
  vars : List String
  opts : Opts
  /-- `time_options['name']` -/
  integrated : String
  /-- the names in `state_options` -/
  states : List String

/-- The keyword arguments of a linkage constraint, aviary/core/aviary_group.py:1167-1173. -/
structure Kw where
  ref : Option ℚ
  ref0 : Option ℚ
  units : Option String
deriving DecidableEq

/-- No keyword argument. Part of the model of aviary/core/aviary_group.py:1034-1077. -/
def Kw.none : Kw := ⟨.none, .none, .none⟩

/-- What is done to the trajectory. Part of the model of aviary/core/aviary_group.py:1134-1179. -/
inductive Act
  /-- `traj.link_phases(phases=[p1, p2], vars=[var], connected=…)` -/
  | link (p1 p2 var : String) (connected : Bool) (kw : Kw)
  /-- `traj.add_linkage_constraint(p1, p2, source, var, connected=…)` -/
  | linkage (p1 p2 source var : String) (connected : Bool) (kw : Kw)
  /-- `phase.set_state_options(var, input_initial=False)` -/
  | inputOff (phase var : String)
deriving DecidableEq

/-- Errors of the function. Part of the model of aviary/core/aviary_group.py:1081-1102. -/
inductive Err
  /-- `opt2` is read before any value was given to it (`UnboundLocalError`). -/
  | unboundOpt2
deriving DecidableEq

/-- The truth value of an option value in Python: `None` and zero are false.
Part of the model of aviary/core/aviary_group.py:1034-1077. -/
def truthy : Option ℚ → Bool
  | .none => false
  | some q => decide (q ≠ 0)

/-- `sorted` on strings. Part of the model of aviary/core/aviary_group.py:1028-1132. -/
def sorted (l : List String) : List String := l.insertionSort (· ≤ ·)

/-- `item.startswith('initial_')`. Part of the model of aviary/core/aviary_group.py:1081-1102. -/
def isInitial (s : String) : Bool := "initial_".toList.isPrefixOf s.toList

/-- `var.removeprefix('initial_')`. Part of the model of aviary/core/aviary_group.py:1081-1102. -/
def stem (s : String) : String := if isInitial s then String.ofList (s.toList.drop 8) else s

/-- aviary/core/aviary_group.py:1054-1057, 1087-1090, 1118-1121 -/
def linkKey (var : String) : String :=
  if var = "time" then "time_initial_direct_link" else var ++ "_direct_link"

/-- aviary/core/aviary_group.py:1058, 1091, 1122 -/
def wantConnect (cd : Bool) (p2 : Phase) (var : String) : Bool := cd && (p2.opts.flag (linkKey var)).getD cd

/-- The reference values of `_find_scaling`, aviary/core/aviary_group.py:1152-1165, for the name under which they are stored. -/
def scaling (var : String) (o1 o2 : Opts) : Kw :=
  if var = "time" then
    let r := o2.pair "time_initial_ref"
    let r := if r.1 = .none then o1.pair "time_duration_ref" else r
    ⟨r.1, .none, r.2⟩
  else
    let r := o1.pair (var ++ "_ref")
    if r.1 = .none then
      let r := o2.pair (var ++ "_ref")
      ⟨r.1, (o2.pair (var ++ "_ref0")).1, r.2⟩
    else ⟨r.1, (o1.pair (var ++ "_ref0")).1, r.2⟩

/-- aviary/core/aviary_group.py:1142-1150: the name under which the scaling of `var` is stored, `none` when there is none because
time is not integrated. -/
def scaleName (p1 : Phase) (var : String) : Option String :=
  if p1.states.length < 1 then some var
  else if var = "time" then (if p1.integrated ≠ "time" then .none else some var)
  else if var = p1.integrated then some "time"
  else some var

/-- `_find_scaling`, aviary/core/aviary_group.py:1134-1179, with the change made to the state options of the second phase. -/
def findScaling (var : String) (p1 p2 : Phase) (opt2 : Option Bool) : List Act × Kw :=
  match scaleName p1 var with
  | .none => ([], Kw.none)
  | some v =>
    (if opt2 = .none ∧ v ≠ "time" ∧ v ∈ p2.states then [.inputOff p2.name v] else [], scaling v p1.opts p2.opts)

/-- `{var}_optimize`, aviary/core/aviary_group.py:1036-1037 -/
def optimize (p : Phase) (var : String) : Option Bool := p.opts.flag (var ++ "_optimize")

/-- `pin1`, aviary/core/aviary_group.py:1043 -/
def pinFinal (p : Phase) (var : String) : Option ℚ := (p.opts.pair (var ++ "_final")).1

/-- `pin2`, aviary/core/aviary_group.py:1044 -/
def pinInitial (p : Phase) (var : String) : Option ℚ := (p.opts.pair (var ++ "_initial")).1

/-- Body of the loop over the common variables, aviary/core/aviary_group.py:1034-1077. -/
def commonActs (cd : Bool) (p1 p2 : Phase) (var : String) : List Act :=
  if optimize p1 var = some false ∧ optimize p2 var = some false then []
  else if truthy (pinFinal p1 var) ∧ truthy (pinInitial p2 var) then []
  else
    let connect := wantConnect cd p2 var
    let connect := if optimize p2 var = some false then false
      else if truthy (pinInitial p2 var) then false else connect
    let s := if connect then ([], Kw.none) else findScaling var p1 p2 (optimize p2 var)
    s.1 ++ [.link p1.name p2.name var connect s.2]

/-- Loop over the common variables. The last value given to `opt2` stays after the loop.
Part of the model of aviary/core/aviary_group.py:1028-1132. -/
def commonLoop (cd : Bool) (p1 p2 : Phase) : List String → Option (Option Bool) → List Act × Option (Option Bool)
  | [], st => ([], st)
  | v :: vs, _ =>
    let r := commonLoop cd p1 p2 vs (some (optimize p2 v))
    (commonActs cd p1 p2 v ++ r.1, r.2)

/-- The scaling asked for by the loops over the analytic variables: `opt2` is read only when the link is not
connected. Part of the model of aviary/core/aviary_group.py:1081-1102. -/
def analyticScaling (connect : Bool) (var : String) (p1 p2 : Phase) (st : Option (Option Bool)) :
    Except Err (List Act × Kw) :=
  if connect then .ok ([], Kw.none)
  else match st with
    | .none => .error .unboundOpt2
    | some o => .ok (findScaling var p1 p2 o)

/-- Body of the loop over the `initial_` variables of the second phase, aviary/core/aviary_group.py:1081-1102. -/
def downActs (cd : Bool) (p1 p2 : Phase) (st : Option (Option Bool)) (var : String) : Except Err (List Act) :=
  if stem var ∉ p1.vars then .ok []
  else
    match analyticScaling (wantConnect cd p2 (stem var)) (stem var) p1 p2 st with
    | .error e => .error e
    | .ok s => .ok (s.1 ++ [.linkage p1.name p2.name (stem var) var (wantConnect cd p2 (stem var)) s.2])

/-- Body of the loop over the `initial_` variables of the first phase, aviary/core/aviary_group.py:1106-1132. -/
def upActs (cd : Bool) (p1 p2 : Phase) (st : Option (Option Bool)) (var : String) : Except Err (List Act) :=
  if stem var ∉ p2.vars then .ok []
  else if var ∈ p2.vars.filter isInitial ∨ stem var ∈ p2.vars.filter isInitial then .ok []
  else
    match analyticScaling (wantConnect cd p2 (stem var)) (stem var) p1 p2 st with
    | .error e => .error e
    | .ok s => .ok (s.1 ++ [.link p1.name p2.name (stem var) (wantConnect cd p2 (stem var)) s.2])

/-- A loop whose body may raise. Part of the model of aviary/core/aviary_group.py:1028-1132. -/
def runAll (f : String → Except Err (List Act)) : List String → Except Err (List Act)
  | [] => .ok []
  | v :: vs =>
    match f v with
    | .error e => .error e
    | .ok a => match runAll f vs with
      | .error e => .error e
      | .ok b => .ok (a ++ b)

/-- Body of the loop over the phases, aviary/core/aviary_group.py:1028-1132, with the value left in `opt2`. -/
def linkPair (cd : Bool) (p1 p2 : Phase) (st : Option (Option Bool)) :
    Except Err (List Act × Option (Option Bool)) :=
  let common := p1.vars.filter (· ∈ p2.vars)
  let up := p1.vars.filter isInitial
  let down := p2.vars.filter isInitial
  let c := commonLoop cd p1 p2 (sorted common) st
  match runAll (downActs cd p1 p2 c.2) (sorted down) with
  | .error e => .error e
  | .ok d => match runAll (upActs cd p1 p2 c.2) (sorted up) with
    | .error e => .error e
    | .ok u => .ok (c.1 ++ d ++ u, c.2)

/-- Loop over the phases, aviary/core/aviary_group.py:1009-1026; `reserve` is the first reserve phase. -/
def linkFrom (cd : Bool) (reserve : Option String) : Phase → List Phase → Option (Option Bool) →
    Except Err (List Act)
  | _, [], _ => .ok []
  | p1, p2 :: ps, st =>
    if reserve = some p2.name then linkFrom cd reserve p2 ps st
    else match linkPair cd p1 p2 st with
      | .error e => .error e
      | .ok (a, st') => match linkFrom cd reserve p2 ps st' with
        | .error e => .error e
        | .ok b => .ok (a ++ b)

/-- `link_phases`, aviary/core/aviary_group.py:976-1132: the actions, and whether `configure_trajectory` and `check_trajectory` are
called afterwards. `ranks` is `comm.size`. -/
def linkPhases (ranks : ℕ) (parallel : Bool) (reserves : List String) (phases : List Phase) :
    Except Err (List Act × Bool) :=
  if phases.length ≤ 1 then .ok ([], false)
  else
    let cd := !(decide (ranks > 1) && parallel)
    match phases with
    | [] => .ok ([], false)
    | p :: ps => match linkFrom cd reserves.head? p ps .none with
      | .error e => .error e
      | .ok a => .ok (a, true)

end Verif.LinkPhases
