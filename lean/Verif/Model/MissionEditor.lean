import Verif.Model.Dict
import Mathlib.Data.Rat.Floor
import Mathlib.Data.Int.Log

/-!
# The graphical editor of missions

`AviaryMissionEditor`, `create_phase_info` and `estimate_total_range_trapezoidal` of
`aviary/interface/graphical_input.py`.  Windows, colours and plots are left out; what is kept is the data behind them: the
lists of points, the orders of the phases, the rows of the table with their check boxes, the options.  A callback that raises
leaves the editor running in the state reached, so that every callback returns a state together with the exception it raised.
Numbers are rational.
-/

namespace Verif.MissionEditor

/-- The variables of the profile (`aviary/interface/graphical_input.py:228`). -/
inductive Axis
  | time | alt | mach
  deriving DecidableEq, Repr

/-- The advanced options (`aviary/interface/graphical_input.py:234-240`). -/
structure Options where
  constrainRange : Bool := true
  solve : Bool := false
  takeoff : Bool := false
  landing : Bool := false
  poly : ℕ := 1
  deriving DecidableEq, Repr

/-- The state of the editor: points, orders of phases, rows of the table, check boxes for altitude and for Mach number, whether
these are shown, units, limits of the axes, digits of the rounding, options
(`aviary/interface/graphical_input.py:226-264`, `:791-798`). -/
structure Editor where
  data : Axis → List ℚ := fun | .time => [0] | .alt => [0] | .mach => [3 / 10]
  orders : List ℕ := []
  rows : ℕ := 1
  altFlags : List Bool := []
  machFlags : List Bool := []
  showOpt : Bool := false
  units : Axis → String := fun | .time => "min" | .alt => "ft" | .mach => "unitless"
  limits : Axis → ℚ := fun | .time => 400 | .alt => 50000 | .mach => 1
  digits : Axis → ℕ := fun _ => 3
  opts : Options := {}

/-- `len(self.data[0])`. Part of the model of aviary/interface/graphical_input.py:323. -/
abbrev Editor.n (e : Editor) : ℕ := (e.data .time).length

/-- A list of one variable is replaced. Part of the model of aviary/interface/graphical_input.py:324-331. -/
def Editor.put (e : Editor) (a : Axis) (l : List ℚ) : Editor := { e with data := fun b => if b = a then l else e.data b }

/-- The state after a callback and the exception it raised. Part of the model of aviary/interface/graphical_input.py:312-331. -/
abbrev Res := Editor × Option Err

/-- One statement after the other. Part of the model of aviary/interface/graphical_input.py:312-331. -/
def Res.andThen (r : Res) (f : Editor → Res) : Res :=
  match r.2 with
  | none => f r.1
  | some _ => r

/-- The lowest order of a phase (`aviary/interface/graphical_input.py:250`). -/
def orderDefault : ℕ := 3

/-- `update_list`; `none` is a text that is no number (`aviary/interface/graphical_input.py:312-331`). -/
def updateList (e : Editor) (value : Option ℚ) (index : ℕ) (a : Axis) : Res :=
  match value with
  | none => (e, none)
  | some v =>
    if v < 0 then (e, none)
    else if index = e.n then
      let e := e.put a (e.data a ++ [v])
      if e.orders.length < e.n - 1 then ({ e with orders := e.orders ++ [orderDefault] }, none) else (e, none)
    else if index < (e.data a).length then (e.put a ((e.data a).set index v), none)
    else (e, some .indexError)

/-- `redraw_plot`: drawing lists of different lengths raises (`aviary/interface/graphical_input.py:477-500`). -/
def redraw (e : Editor) : Res :=
  if (e.data .alt).length = e.n ∧ (e.data .mach).length = e.n then (e, none) else (e, some .valueError)

/-- `update_str_vars`: the texts of the table (`aviary/interface/graphical_input.py:619-624`). -/
def updateStrVars (e : Editor) : Res :=
  if e.n ≤ e.rows ∧ (e.data .alt).length ≤ e.rows ∧ (e.data .mach).length ≤ e.rows then (e, none)
  else (e, some .indexError)

/-- The rows from `row` on are added to the table, `todo` of them (`aviary/interface/graphical_input.py:667-759`). -/
def addRows (e : Editor) (flags : Option (List Bool × List Bool)) : (todo row : ℕ) → Res
  | 0, _ => (e, none)
  | todo + 1, row =>
    if (e.data .alt).length ≤ row ∨ (e.data .mach).length ≤ row then (e, some .indexError)
    else
      let e := { e with rows := e.rows + 1 }
      if row = 0 ∨ e.showOpt = false then addRows e flags todo (row + 1)
      else
        match flags with
        | none => addRows { e with altFlags := e.altFlags ++ [false], machFlags := e.machFlags ++ [false] } flags todo (row + 1)
        | some (fa, fm) =>
          match fa[row - 1]?, fm[row - 1]? with
          | some x, some y =>
            addRows { e with altFlags := e.altFlags ++ [x], machFlags := e.machFlags ++ [y] } flags todo (row + 1)
          | _, _ => (e, some .indexError)

/-- `update_table` (`aviary/interface/graphical_input.py:644-765`). -/
def updateTable (e : Editor) (overwrite : Bool) (flags : Option (List Bool × List Bool)) : Res :=
  if overwrite ∧ 0 < e.rows then addRows { e with rows := 0, altFlags := [], machFlags := [] } flags e.n 0
  else if e.n = 0 then (e, none)
  else addRows e flags 1 (e.n - 1)

/-- The three numbers of a new point are appended
(`aviary/interface/graphical_input.py:541-547`, `:785-786`). -/
def addPoint (e : Editor) (x y m : ℚ) : Res :=
  ((updateList e (some x) e.n .time).andThen fun e => updateList e (some y) e.n .alt).andThen fun e =>
    updateList e (some m) e.n .mach

/-- `add_new_row` (`aviary/interface/graphical_input.py:775-789`). -/
def addNewRow (e : Editor) : Res :=
  let x := match (e.data .time).getLast? with
    | none => 0
    | some t => (e.limits .time - t) / 2 + t
  ((addPoint e x (e.limits .alt / 2) (e.limits .mach / 2)).andThen redraw).andThen fun e => updateTable e false none

/-- `on_mouse_click` of the left button inside one of the plots (`aviary/interface/graphical_input.py:524-551`). -/
def click (e : Editor) (plot : Axis) (x y : ℚ) : Res :=
  if x = 0 ∨ y = 0 then (e, none)
  else
    let r : Res := if (e.data .time).all (· < x) then
        addPoint e x (if plot = .alt then y else e.limits .alt / 2) (if plot = .mach then y else e.limits .mach / 2)
      else (e, none)
    (r.andThen redraw).andThen fun e => updateTable e false none

/-- A point is dragged inside one of the plots (`aviary/interface/graphical_input.py:599-608`). -/
def drag (e : Editor) (i : ℕ) (plot : Axis) (x y : ℚ) : Res :=
  if x = 0 ∨ y = 0 then (e, none)
  else
    (((updateList e (some x) i .time).andThen fun e => updateList e (some y) i plot).andThen redraw).andThen updateStrVars

/-- An entry of the table is edited (`aviary/interface/graphical_input.py:704-710`). -/
def edit (e : Editor) (row : ℕ) (a : Axis) (v : Option ℚ) : Res := (updateList e v row a).andThen redraw

/-- `delete_point`.  Simplified: if a list is too short none is changed (`aviary/interface/graphical_input.py:626-642`). -/
def deletePoint (e : Editor) (row : ℕ) : Res :=
  if row < e.n ∧ 0 < row ∧ e.orders.length ≤ row - 1 then (e, some .indexError)
  else
    let e := if row < e.n ∧ 0 < row then { e with orders := e.orders.eraseIdx (row - 1) } else e
    if row < e.n ∧ row < (e.data .alt).length ∧ row < (e.data .mach).length then
      (redraw { e with data := fun a => (e.data a).eraseIdx row }).andThen fun e => updateTable e true none
    else (e, some .indexError)

/-- The check boxes are shown or hidden (`aviary/interface/graphical_input.py:1195-1197`). -/
def toggle (e : Editor) (b : Bool) : Res := updateTable { e with showOpt := b } true none

/-- A check box is ticked (`aviary/interface/graphical_input.py:726-742`). -/
def tick (e : Editor) (i : ℕ) (a : Axis) (b : Bool) : Res :=
  match a with
  | .alt => ({ e with altFlags := e.altFlags.set i b }, none)
  | .mach => ({ e with machFlags := e.machFlags.set i b }, none)
  | .time => (e, none)

/-- The order of a phase is typed in, `change_var` (`aviary/interface/graphical_input.py:1079-1092`). -/
def setOrder (e : Editor) (i : ℕ) (v : ℕ) : Res :=
  if i < e.orders.length then ({ e with orders := e.orders.set i (max v orderDefault) }, none) else (e, some .indexError)

/-- `reset_options` of the advanced options, called with the former options by the button "cancel"
(`aviary/interface/graphical_input.py:1024-1027`, `:1122-1124`). -/
def resetAdvanced (e : Editor) (old : Options) : Editor :=
  { e with opts := old, orders := List.replicate (e.n - 1) orderDefault }

/-! ## Units -/

/-- Times and lengths in seconds and metres (`aviary/interface/graphical_input.py:1304`); the factors are those of the library. -/
def factor : String → Option ℚ
  | "s" => some 1
  | "min" => some 60
  | "h" => some 3600
  | "m" => some 1
  | "km" => some 1000
  | "ft" => some (3048 / 10000)
  | "mi" => some (1609344 / 1000)
  | "nmi" => some 1852
  | "unitless" => some 1
  | _ => none

/-- `convert_units` between units of one kind. Part of the model of aviary/interface/graphical_input.py:1341-1347. -/
def convert (x : ℚ) (old new : String) : Except Err ℚ :=
  match factor old, factor new with
  | some a, some b => .ok (x * a / b)
  | _, _ => .error .valueError

/-- A list is converted. Part of the model of aviary/interface/graphical_input.py:1345-1347. -/
def convertAll (l : List ℚ) (old new : String) : Except Err (List ℚ) := l.mapM fun x => convert x old new

/-- `apply_units`: points and limits are converted, three digits of the whole part or more make no digits of the rounding,
otherwise two.  Simplified: numbers are not negative, as `update_list` has it (`aviary/interface/graphical_input.py:1327-1358`). -/
def applyUnits (e : Editor) (new : Axis → String) : Res :=
  match convert (e.limits .time) (e.units .time) (new .time), convert (e.limits .alt) (e.units .alt) (new .alt),
      convert (e.limits .mach) (e.units .mach) (new .mach), convertAll (e.data .time) (e.units .time) (new .time),
      convertAll (e.data .alt) (e.units .alt) (new .alt), convertAll (e.data .mach) (e.units .mach) (new .mach) with
  | .ok lt, .ok la, .ok lm, .ok t, .ok a, .ok m =>
    let limits : Axis → ℚ := fun | .time => lt | .alt => la | .mach => lm
    let e := { e with
      units := new, limits := limits, data := fun | .time => t | .alt => a | .mach => m
      digits := fun x => if 100 ≤ limits x then 0 else 2 }
    (redraw e).andThen fun e => updateTable e true (some (e.altFlags, e.machFlags))
  | _, _, _, _, _, _ => (e, some .valueError)

/-! ## Rounding -/

/-- The nearest integer, ties to even. Part of the model of aviary/interface/graphical_input.py:841-847. -/
def halfEven (x : ℚ) : ℤ :=
  if x - ⌊x⌋ < 1 / 2 then ⌊x⌋ else if 1 / 2 < x - ⌊x⌋ then ⌊x⌋ + 1 else if ⌊x⌋ % 2 = 0 then ⌊x⌋ else ⌊x⌋ + 1

/-- `float(f'{value:8.{precision}g}')`: that many significant digits, at least one
(`aviary/interface/graphical_input.py:841-847`, `:1540-1542`). -/
def sig (precision : ℕ) (x : ℚ) : ℚ :=
  if x = 0 then 0
  else
    let k := Int.log 10 |x| - ((max precision 1 : ℕ) - 1)
    halfEven (x / 10 ^ k) * 10 ^ k

/-! ## The file -/

/-- Kinds of phases (`aviary/interface/graphical_input.py:1655-1667`). -/
inductive Kind
  | climb | cruise | descent
  deriving DecidableEq, Repr

/-- The options of one phase that depend on the profile (`aviary/interface/graphical_input.py:1671-1703`, `:1716-1720`). -/
structure PhaseInfo where
  numSegments : ℕ
  order : ℕ
  machOptimize : Bool
  polyOrder : ℕ
  machInitial : ℚ
  machFinal : ℚ
  machBounds : ℚ × ℚ
  altOptimize : Bool
  altInitial : ℚ
  altFinal : ℚ
  altBounds : ℚ × ℚ
  pathThrottle : Bool
  initialBounds : ℚ × ℚ
  durationBounds : ℚ × ℚ
  guess : ℚ × ℚ
  timeUnit : String
  altUnit : String
  machUnit : String
  solve : Bool
  deriving DecidableEq, Repr

/-- The dictionary written to the file.  Simplified: the name `climb_3` is the pair of `climb` and `3`
(`aviary/interface/graphical_input.py:1637-1730`). -/
structure Info where
  takeoff : Bool
  landing : Bool
  constrainRange : Bool
  targetRange : ℚ × String
  phases : Dict (Kind × ℕ) PhaseInfo
  deriving DecidableEq, Repr

/-- `create_bounds` (`aviary/interface/graphical_input.py:1615-1618`). -/
def createBounds (c : ℚ) : ℚ × ℚ := (max (c / 2) (1 / 10), c * (3 / 2))

/-- Differences of successive times (`aviary/interface/graphical_input.py:1621`). -/
def durations : List ℚ → List ℚ
  | a :: b :: l => (b - a) :: durations (b :: l)
  | _ => []

/-- `cumulative_initial_bounds` (`aviary/interface/graphical_input.py:1623-1632`). -/
def cumulative (acc : ℚ × ℚ) : List (ℚ × ℚ) → List (ℚ × ℚ)
  | [] => []
  | d :: ds => acc :: cumulative (acc.1 + d.1, acc.2 + d.2) ds

/-- `l[i]`. Part of the model of aviary/interface/graphical_input.py:1651-1652. -/
def nth {α : Type} (l : List α) (i : ℕ) : Except Err α :=
  match l[i]? with
  | some x => .ok x
  | none => .error .indexError

/-- The arguments of `create_phase_info` (`aviary/interface/graphical_input.py:1572-1584`). -/
structure Args where
  times : List ℚ
  alts : List ℚ
  machs : List ℚ
  units : Axis → String
  poly : ℕ
  numSegments : ℕ
  machFlags : List Bool
  altFlags : List Bool
  opts : Options
  orders : List ℕ

/-- The number of phases (`aviary/interface/graphical_input.py:1606`). -/
abbrev Args.phases (c : Args) : ℕ := c.times.length - 1

/-- Kind of a phase (`aviary/interface/graphical_input.py:1655-1667`). -/
def kindOf (a b : ℚ) : Kind := if a < b then .climb else if b = a then .cruise else .descent

/-- The options of phase `i` (`aviary/interface/graphical_input.py:1671-1703`). -/
def phaseAt (c : Args) (margin : ℚ) (i : ℕ) : Except Err PhaseInfo := do
  let a ← nth c.alts i
  let b ← nth c.alts (i + 1)
  let o ← nth c.orders i
  let mf ← nth c.machFlags i
  let m ← nth c.machs i
  let m' ← nth c.machs (i + 1)
  let af ← nth c.altFlags i
  let ib ← nth (cumulative (0, 0) ((durations c.times).map createBounds)) i
  let db ← nth ((durations c.times).map createBounds) i
  let t ← nth c.times i
  let t' ← nth c.times (i + 1)
  pure { numSegments := c.numSegments, order := o, machOptimize := mf, polyOrder := c.poly, machInitial := m, machFinal := m',
         machBounds := (min m m' - 1 / 50, max m m' + 1 / 50), altOptimize := af, altInitial := a, altFinal := b,
         altBounds := (max (min a b - margin) 0, max a b + margin), pathThrottle := i = c.phases - 1 || i = 0,
         initialBounds := ib, durationBounds := db, guess := (t, t' - t), timeUnit := c.units .time, altUnit := c.units .alt,
         machUnit := c.units .mach, solve := c.opts.solve }

/-- The phases from `i` on are entered in the dictionary, `todo` of them; `count` are the counters of the three kinds
(`aviary/interface/graphical_input.py:1646-1703`). -/
def phaseLoop (c : Args) (margin : ℚ) : (todo i : ℕ) → (count : Kind → ℕ) → Dict (Kind × ℕ) PhaseInfo →
    Except Err (Dict (Kind × ℕ) PhaseInfo)
  | 0, _, _, d => .ok d
  | todo + 1, i, count, d => do
    let a ← nth c.alts i
    let b ← nth c.alts (i + 1)
    let p ← phaseAt c margin i
    phaseLoop c margin todo (i + 1) (fun k => if k = kindOf a b then count k + 1 else count k)
      (d.set (kindOf a b, count (kindOf a b)) p)

/-- `trapz`. Part of the model of aviary/interface/graphical_input.py:1745. -/
def trapz : List ℚ → List ℚ → ℚ
  | t :: t' :: ts, s :: s' :: ss => (t' - t) * (s + s') / 2 + trapz (t' :: ts) (s' :: ss)
  | _, _ => 0

/-- The unit of the range (`aviary/interface/graphical_input.py:1746-1751`). -/
def rangeUnit (u : String) : String := if u = "m" then "km" else if u = "ft" then "nmi" else u

/-- `estimate_total_range_trapezoidal` (`aviary/interface/graphical_input.py:1735-1755`). -/
def estimateRange (times machs : List ℚ) (units : Axis → String) : Except Err (ℚ × String) := do
  let secs ← convertAll times (units .time) "s"
  let u := rangeUnit (units .alt)
  if times.length ≠ machs.length then .error .valueError
  else do
    let r ← convert (trapz secs (machs.map (· * 343))) "m" u
    pure ((halfEven (r * 100) : ℚ) / 100, u)

/-- `create_phase_info` (`aviary/interface/graphical_input.py:1572-1732`). -/
def createPhaseInfo (c : Args) : Except Err Info := do
  let margin ← convert 500 "ft" (c.units .alt)
  let ph ← phaseLoop c margin c.phases 0 (fun _ => 1) []
  let r ← estimateRange c.times c.machs c.units
  pure { takeoff := c.opts.takeoff, landing := c.opts.landing, constrainRange := c.opts.constrainRange, targetRange := r,
         phases := ph }

/-- Whether times never decrease (`aviary/interface/graphical_input.py:1516-1522`). -/
def forwards : List ℚ → Bool
  | a :: b :: l => decide (a ≤ b) && forwards (b :: l)
  | _ => true

/-- The arguments that `save` passes on (`aviary/interface/graphical_input.py:1533-1560`). -/
def saveArgs (e : Editor) : Args where
  times := (e.data .time).map (sig (e.digits .time))
  alts := (e.data .alt).map (sig (e.digits .alt))
  machs := (e.data .mach).map (sig (e.digits .mach))
  units := e.units
  poly := e.opts.poly
  numSegments := e.n - 1
  machFlags := if e.altFlags.length ≠ e.n - 1 then List.replicate (e.n - 1) false else e.machFlags
  altFlags := if e.altFlags.length ≠ e.n - 1 then List.replicate (e.n - 1) false else e.altFlags
  opts := e.opts
  orders := e.orders

/-- `save`.  Simplified: that the points in the editor are rounded as well is left out.  `answer` is the answer of the user about low Mach numbers, `none` a mission that is not saved
(`aviary/interface/graphical_input.py:1512-1562`). -/
def save (e : Editor) (answer : Bool) : Except Err (Option Info) :=
  if forwards (e.data .time) = false then .ok none
  else if e.data .mach = [] then .error .valueError
  else if (e.data .mach).any (· < 1 / 4) && !answer then .ok none
  else (createPhaseInfo (saveArgs e)).map some

/-- What is read from a file: the lists and the options so far. Part of the model of aviary/interface/graphical_input.py:1423-1466. -/
structure Loading where
  data : Axis → List ℚ
  altFlags : List Bool
  machFlags : List Bool
  orders : List ℕ
  opts : Options
  units : Axis → String

/-- The numbers of one phase are entered at position `idx` (`aviary/interface/graphical_input.py:1435-1464`). -/
def loaded (s : Loading) (idx : ℕ) (p : PhaseInfo) : Loading where
  data := fun
    | .time => (s.data .time).set (idx + 1) (p.guess.2 + p.guess.1)
    | .alt => (s.data .alt).set (idx + 1) p.altFinal
    | .mach => (s.data .mach).set (idx + 1) p.machFinal
  altFlags := s.altFlags.set idx p.altOptimize
  machFlags := s.machFlags.set idx p.machOptimize
  orders := s.orders ++ [p.order]
  opts := { s.opts with solve := p.solve, poly := p.polyOrder }
  units := fun | .time => p.timeUnit | .alt => s.units .alt | .mach => s.units .mach

/-- One phase is read into position `idx` (`aviary/interface/graphical_input.py:1435-1466`). -/
def loadPhase (s : Loading) (idx : ℕ) (p : PhaseInfo) : Except Err Loading :=
  if idx + 1 < (s.data .time).length then .ok (loaded s idx p) else .error .indexError

/-- All phases are read (`aviary/interface/graphical_input.py:1428-1466`). -/
def loadPhases (s : Loading) : (idx : ℕ) → List PhaseInfo → Except Err Loading
  | _, [] => .ok s
  | idx, p :: ps => do
    let s ← loadPhase s idx p
    loadPhases s (idx + 1) ps

/-- The lists are made with as many points as the first phase has segments, and one more
(`aviary/interface/graphical_input.py:1452-1460`). -/
def startLoading (opts : Options) (p : PhaseInfo) : Loading where
  data := fun
    | .time => p.guess.1 :: List.replicate p.numSegments 0
    | .alt => p.altInitial :: List.replicate p.numSegments 0
    | .mach => p.machInitial :: List.replicate p.numSegments 0
  altFlags := List.replicate p.numSegments false
  machFlags := List.replicate p.numSegments false
  orders := []
  opts := opts
  units := fun | .time => p.timeUnit | .alt => p.altUnit | .mach => p.machUnit

/-- The largest of some numbers, zero of none. Part of the model of aviary/interface/graphical_input.py:1486. -/
def maxOf (l : List ℚ) : ℚ := match l with
  | [] => 0
  | a :: l => l.foldl max a

/-- `open_phase_info`.  Simplified: when it raises while reading, the editor keeps its former state
(`aviary/interface/graphical_input.py:1406-1498`). -/
def openInfo (e : Editor) (f : Info) : Res :=
  match f.phases with
  | [] => (e, some .unboundLocal)
  | (_, p) :: _ =>
    match loadPhases (startLoading e.opts p) 0 (f.phases.map (·.2)) with
    | .error x => (e, some x)
    | .ok s =>
      let e := { e with
        data := s.data, orders := s.orders, units := s.units
        opts := { s.opts with constrainRange := f.constrainRange, landing := f.landing, takeoff := f.takeoff }
        showOpt := e.showOpt || s.altFlags.any id || s.machFlags.any id
        limits := fun a => maxOf (s.data a) * (6 / 5) }
      (redraw e).andThen fun e => updateTable e true (some (s.altFlags, s.machFlags))

/-! ## Sessions -/

/-- What the user does. Part of the model of aviary/interface/graphical_input.py:448-450, :704-710, :751, :809-813. -/
inductive Event
  | addRow
  | click (plot : Axis) (x y : ℚ)
  | drag (i : ℕ) (plot : Axis) (x y : ℚ)
  | edit (row : ℕ) (a : Axis) (v : Option ℚ)
  | delete (row : ℕ)
  | toggle (b : Bool)
  | tick (i : ℕ) (a : Axis) (b : Bool)
  | order (i v : ℕ)
  | limit (a : Axis) (v : ℚ)
  | units (new : Axis → String)
  | load (f : Info)

/-- One callback. Part of the model of aviary/interface/graphical_input.py:448-450, :704-710, :751, :809-813. -/
def step (e : Editor) : Event → Res
  | .addRow => addNewRow e
  | .click p x y => click e p x y
  | .drag i p x y => drag e i p x y
  | .edit r a v => edit e r a v
  | .delete r => deletePoint e r
  | .toggle b => toggle e b
  | .tick i a b => tick e i a b
  | .order i v => setOrder e i v
  | .limit a v => ({ e with limits := fun b => if b = a then v else e.limits b }, none)
  | .units new => applyUnits e new
  | .load f => openInfo e f

/-- A session: an exception in a callback does not end it. Part of the model of aviary/interface/graphical_input.py:1781-1782. -/
def session (e : Editor) : List Event → Editor
  | [] => e
  | ev :: evs => session (step e ev).1 evs

end Verif.MissionEditor
