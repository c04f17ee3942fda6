import Verif.Model.Dict
import Mathlib.Data.List.Basic
import Mathlib.Algebra.Order.Field.Rat
import Mathlib.Algebra.Order.Group.Unbundled.Abs
import Mathlib.Algebra.Order.AbsoluteValue.Basic

/-!
# Model of the data handling of `EngineDeck` (aviary/subsystems/propulsion/engine_deck.py)

Numbers are rationals; rounding, nan and inf are not modelled.
-/

namespace Verif

/-- `math.isclose(a, b, abs_tol=t)` (default `rel_tol=1e-9`), used at aviary/subsystems/propulsion/engine_deck.py:1648-1649 and 1356. -/
def isclose (a b tol : ℚ) (rel : ℚ := 1 / 1000000000) : Bool :=
  decide (|a - b| ≤ max (rel * max |a| |b|) tol)

/-! ## Counting and packing -/

/-- A 2d numpy array of counts: shape and entries.  Entries outside the shape are never read.
Part of the model of aviary/subsystems/propulsion/engine_deck.py:1757-1799. -/
structure Arr2 where
  rows : ℕ
  cols : ℕ
  get : ℕ → ℕ → ℕ

/-- `extend_array(inp_array, [r, c])` for 2d arrays: pad with zeros to at least the given shape,
aviary/subsystems/propulsion/engine_deck.py:1757-1799. -/
def Arr2.extend (a : Arr2) (r c : ℕ) : Arr2 :=
  ⟨a.rows + (r - a.rows), a.cols + (c - a.cols),
    fun i j => if i < a.rows ∧ j < a.cols then a.get i j else 0⟩

/-- `a[i, j] = v`; an index outside the shape is an IndexError.
Part of the model of aviary/subsystems/propulsion/engine_deck.py:1644-1707. -/
def Arr2.set (a : Arr2) (i j v : ℕ) : Except Err Arr2 :=
  if i < a.rows ∧ j < a.cols then
    .ok { a with get := fun i' j' => if i' = i ∧ j' = j then v else a.get i' j' }
  else .error .indexError

/-- One line of the deck: Mach number, altitude and the other columns.
Part of the model of aviary/subsystems/propulsion/engine_deck.py:1644-1707. -/
structure DeckPt where
  mach : ℚ
  alt : ℚ
  row : List ℚ
  deriving DecidableEq

/-- Which variable the deck is sorted by, `Aircraft.Engine.INTERPOLATION_SORT`.
Part of the model of aviary/subsystems/propulsion/engine_deck.py:1644-1707. -/
inductive SortBy
  | mach | altitude
  deriving DecidableEq

/-- The local variables of `_count_data`, aviary/subsystems/propulsion/engine_deck.py:1623-1639.  `curr_mach = curr_alt = inf` is `none`. -/
structure CountSt where
  machCount : ℕ
  altCount : ℕ
  maxAlt : ℕ
  dataCount : ℕ
  maxData : ℕ
  idx : Arr2
  curM : Option ℚ
  curA : Option ℚ

/-- aviary/subsystems/propulsion/engine_deck.py:1625-1636 -/
def countInit : CountSt := ⟨0, 1, 0, 1, 0, ⟨1, 0, fun _ _ => 0⟩, none, none⟩

/-- `math.isclose` against the current value, `inf` is close to nothing.
Part of the model of aviary/subsystems/propulsion/engine_deck.py:1644-1707. -/
def closeTo (x : ℚ) (cur : Option ℚ) (tol : ℚ) : Bool :=
  match cur with
  | none => false
  | some c => isclose x c tol

/-- `self.mach_tol`, `self.alt_tol`, `self.thrust_tol`, aviary/subsystems/propulsion/engine_deck.py:180-182 -/
def machTol : ℚ := 1 / 100
/-- `altTol`: part of the model of aviary/subsystems/propulsion/engine_deck.py:1644-1707. -/
def altTol : ℚ := 10
/-- `thrustTol`: part of the model of aviary/subsystems/propulsion/engine_deck.py:460-484. -/
def thrustTol : ℚ := 1

/-- The loop body of `_count_data`, aviary/subsystems/propulsion/engine_deck.py:1644-1707. -/
def countStep (srt : SortBy) (s : CountSt) (p : DeckPt) : Except Err CountSt :=
  if closeTo p.mach s.curM machTol then
    if closeTo p.alt s.curA altTol then do
      let idx ← s.idx.set (s.machCount - 1) (s.altCount - 1) s.dataCount
      .ok { s with idx := idx, dataCount := s.dataCount + 1 }
    else if srt = .altitude ∧ s.machCount < 2 ∧ s.altCount > 0 then .error .userWarning
    else do
      let ac := s.altCount + 1
      let idx ← (s.idx.extend s.machCount ac).set (s.machCount - 1) (ac - 1) 1
      .ok { s with curA := some p.alt, altCount := ac,
                   maxData := if s.dataCount > s.maxData then s.dataCount else s.maxData,
                   dataCount := 1, idx := idx }
  else if srt = .mach ∧ s.altCount < 2 ∧ s.machCount > 0 then .error .userWarning
  else do
    let mc := s.machCount + 1
    let idx ← (s.idx.extend mc 1).set (mc - 1) 0 1
    .ok { curM := some p.mach, machCount := mc,
          maxAlt := if s.altCount > s.maxAlt then s.altCount else s.maxAlt,
          curA := some p.alt, altCount := 1,
          maxData := if s.dataCount > s.maxData then s.dataCount else s.maxData,
          dataCount := 1, idx := idx }

/-- `_count_data`, aviary/subsystems/propulsion/engine_deck.py:1613-1712; the result is the final state, of which `mach_max_count = machCount`,
`alt_max_count = maxAlt`, `data_max_count = maxData` and `data_indices = idx` are stored. -/
def countData (srt : SortBy) : CountSt → List DeckPt → Except Err CountSt
  | s, [] => .ok s
  | s, p :: ps =>
    match countStep srt s p with
    | .ok s' => countData srt s' ps
    | .error e => .error e

/-- One write `packed[M, A, D] = value` of `_pack_data`.
Part of the model of aviary/subsystems/propulsion/engine_deck.py:1602-1609. -/
abbrev PackWrite := (ℕ × ℕ × ℕ) × DeckPt

/-- The innermost loop over `D` at one flight condition: `n` further points starting at `D`, with the running `idx`
already consumed (`deck` is what is left).  Points past the end of the data are not written but the counter goes on;
`D` beyond `data_max_count` is an IndexError, aviary/subsystems/propulsion/engine_deck.py:1602-1609.  All columns of a point are written
together. -/
def packD (dmax M A : ℕ) : ℕ → ℕ → List DeckPt → Except Err (List PackWrite × List DeckPt)
  | 0, _, deck => .ok ([], deck)
  | n + 1, D, deck =>
    match deck with
    | [] => packD dmax M A n (D + 1) []
    | p :: ps =>
      if D < dmax then do
        let (ws, rest) ← packD dmax M A n (D + 1) ps
        .ok (((M, A, D), p) :: ws, rest)
      else .error .indexError

/-- The loop over the flight conditions `(M, A)` in the given order, aviary/subsystems/propulsion/engine_deck.py:1596-1611. -/
def packMA (c : CountSt) : List (ℕ × ℕ) → List DeckPt → Except Err (List PackWrite)
  | [], _ => .ok []
  | (M, A) :: mas, deck =>
    if c.idx.get M A = 0 then packMA c mas deck
    else do
      let (ws, rest) ← packD c.maxData M A (c.idx.get M A + 1) 0 deck
      let ws' ← packMA c mas rest
      .ok (ws ++ ws')

/-- `for M in range(m): for A in range(a)`.
Part of the model of aviary/subsystems/propulsion/engine_deck.py:1577-1611. -/
def gridMA (m a : ℕ) : List (ℕ × ℕ) :=
  (List.range m).flatMap (fun M => (List.range a).map (fun A => (M, A)))

/-- `_pack_data` on sorted data, aviary/subsystems/propulsion/engine_deck.py:1577-1611: the list of writes into the packed array (all other
entries are zero). -/
def packData (srt : SortBy) (deck : List DeckPt) : Except Err (List PackWrite) :=
  match countData srt countInit deck with
  | .error e => .error e
  | .ok c => packMA c (gridMA c.machCount c.maxAlt) deck

/-! ## Throttle normalisation -/

/-- `max(list)`; empty lists raise ValueError.
Part of the model of aviary/subsystems/propulsion/engine_deck.py:1726-1754. -/
def pyMax : List ℚ → Except Err ℚ
  | [] => .error .valueError
  | x :: xs => .ok (xs.foldl max x)

/-- `min(list)`. Part of the model of aviary/subsystems/propulsion/engine_deck.py:1726-1754. -/
def pyMin : List ℚ → Except Err ℚ
  | [] => .error .valueError
  | x :: xs => .ok (xs.foldl min x)

/-- `normalize`, aviary/subsystems/propulsion/engine_deck.py:1726-1754.  With an empty range numpy divides by zero (nan/inf with a warning);
this is the error `zeroDivision` here. -/
def normalize (xs : List ℚ) (maximum minimum : Option ℚ := none) : Except Err (List ℚ) := do
  let mx ← match maximum with
    | some m => .ok m
    | none => pyMax xs
  let mn ← match minimum with
    | some m => .ok m
    | none => pyMin xs
  if xs = [] then .ok []
  else if mx - mn = 0 then .error .zeroDivision
  else .ok (xs.map (fun x => (x - mn) / (mx - mn)))

/-- Puts the new values at the positions where `c` holds (`norm_hybrid_list[idx] = values`).
Part of the model of aviary/subsystems/propulsion/engine_deck.py:1445-1455. -/
def scatter (c : ℚ → Bool) : List ℚ → List ℚ → List ℚ
  | [], _ => []
  | x :: xs, [] => x :: xs
  | x :: xs, v :: vs => if c x then v :: scatter c xs vs else x :: scatter c xs (v :: vs)

/-- The negative part of `_hybrid_throttle_norm`, aviary/subsystems/propulsion/engine_deck.py:1445-1455. -/
def hybridNeg (xs : List ℚ) : Except Err (List ℚ) :=
  let neg := xs.filter (fun x => decide (x < 0))
  if neg = [] then .ok xs else do
    let n ← normalize neg (maximum := some 0)
    .ok (scatter (fun x => decide (x < 0)) xs (n.map (· - 1)))

/-- The positive part of `_hybrid_throttle_norm`, aviary/subsystems/propulsion/engine_deck.py:1457-1466. -/
def hybridPos (xs : List ℚ) : Except Err (List ℚ) :=
  let pos := xs.filter (fun x => decide (x > 0))
  if pos = [] then .ok xs else do
    let n ← normalize pos (minimum := some 0)
    .ok (scatter (fun x => decide (x > 0)) xs n)

/-- `_hybrid_throttle_norm`, aviary/subsystems/propulsion/engine_deck.py:1422-1468. -/
def hybridNorm (xs : List ℚ) : Except Err (List ℚ) := do
  let xs1 ← hybridNeg xs
  hybridPos xs1

/-- What is stored for a throttle in the global mode: column, min, max.
Part of the model of aviary/subsystems/propulsion/engine_deck.py:1511-1514. -/
structure ThrottleOut where
  col : List ℚ
  lo : ℚ
  hi : ℚ
  deriving DecidableEq

/-- `self.data[THROTTLE]`, `throttle_min`, `throttle_max` for GLOBAL_THROTTLE, aviary/subsystems/propulsion/engine_deck.py:1511-1514. -/
def globalThrottle (col : List ℚ) : Except Err ThrottleOut := do
  let n ← normalize col
  let lo ← pyMin n
  let hi ← pyMax n
  .ok ⟨n, lo, hi⟩

/-- The same for GLOBAL_HYBRID_THROTTLE, aviary/subsystems/propulsion/engine_deck.py:1522-1527: the limits are taken before the column is
replaced. -/
def globalHybrid (col : List ℚ) : Except Err ThrottleOut := do
  let n ← hybridNorm col
  let lo ← pyMin col
  let hi ← pyMax col
  .ok ⟨n, lo, hi⟩

/-! ## Reference thrust -/

/-- One deck point as seen by `_set_reference_thrust`.
Part of the model of aviary/subsystems/propulsion/engine_deck.py:1294-1304. -/
structure ThrustPt where
  alt : ℚ
  mach : ℚ
  thrust : ℚ
  deriving DecidableEq

/-- Thrust options of an engine deck; `none` = not given.
Part of the model of aviary/subsystems/propulsion/engine_deck.py:1290-1326. -/
structure ThrustOpts where
  ref : Option ℚ
  scaled : Option ℚ
  factor : Option ℚ
  deriving DecidableEq

/-- aviary/subsystems/propulsion/engine_deck.py:1294-1304: sea-level static points. -/
def slsPoints (d : List ThrustPt) : List ThrustPt :=
  d.filter (fun p => decide (-altTol < p.alt ∧ p.alt ≤ altTol ∧ -machTol < p.mach ∧ p.mach < machTol))

/-- aviary/subsystems/propulsion/engine_deck.py:1290-1326 -/
def findRef (d : List ThrustPt) (o : ThrustOpts) : Except Err ℚ :=
  match o.ref with
  | some r => .ok r
  | none => if slsPoints d = [] then .error .userWarning else pyMax ((slsPoints d).map ThrustPt.thrust)

/-- `_set_reference_thrust`, aviary/subsystems/propulsion/engine_deck.py:1275-1407.  All thrusts are in lbf (`default_units`), warnings and prints
are left out.  Dividing by a zero reference thrust is the error `zeroDivision`. -/
def setReferenceThrust (d : List ThrustPt) (o : ThrustOpts) : Except Err ThrustOpts := do
  let ref ← findRef d o
  match o.factor, o.scaled with
  | some f, some t =>
    if isclose t (ref * f) (1 / 10) (1 / 10000) then .ok ⟨some ref, some (ref * f), some f⟩
    else .error .attributeError
  | some f, none => .ok ⟨some ref, some (ref * f), some f⟩
  | none, some t =>
    if ref = 0 then .error .zeroDivision else .ok ⟨some ref, some t, some (t / ref)⟩
  | none, none => .ok ⟨some ref, some ref, some 1⟩

/-! ## Data checks -/

/-- `EngineModelVariables`, aviary/subsystems/propulsion/utils.py:24-43 -/
inductive EVar
  | mach | altitude | throttle | hybridThrottle | thrust | tailpipeThrust | grossThrust | shaftPower
  | shaftPowerCorrected | ramDrag | rpm | fuelFlow | electricPowerIn | noxRate | t4 | torque
  deriving DecidableEq

/-- All members of the enum, the keys of `self.data` (aviary/subsystems/propulsion/engine_deck.py:168-170). -/
def EVar.all : List EVar :=
  [.mach, .altitude, .throttle, .hybridThrottle, .thrust, .tailpipeThrust, .grossThrust, .shaftPower,
   .shaftPowerCorrected, .ramDrag, .rpm, .fuelFlow, .electricPowerIn, .noxRate, .t4, .torque]

/-- State of the checks: `engine_variables` (names only: all units are already the default units) and `self.data`.
Part of the model of aviary/subsystems/propulsion/engine_deck.py:460-484. -/
structure DeckSt where
  vars : List EVar
  data : List (EVar × List ℚ)

/-- `data[key]`, the empty array for keys without data.
Part of the model of aviary/subsystems/propulsion/engine_deck.py:460-484. -/
def DeckSt.col (s : DeckSt) (v : EVar) : List ℚ := (Dict.get? s.data v).getD []

/-- aviary/subsystems/propulsion/engine_deck.py:460-484: net thrust from gross thrust and ram drag. -/
def netThrust (s : DeckSt) : Except Err DeckSt :=
  if EVar.ramDrag ∈ s.vars ∧ EVar.grossThrust ∈ s.vars then
    let net := List.zipWith (· - ·) (s.col .grossThrust) (s.col .ramDrag)
    if EVar.thrust ∈ s.vars then
      let res := List.zipWith (fun a b => |a - b|) net (s.col .thrust)
      if res.any (fun r => decide (thrustTol > r)) then .error .userWarning else .ok s
    else .ok ⟨s.vars ++ [.thrust], Dict.set s.data .thrust net⟩
  else .ok s

/-- aviary/subsystems/propulsion/engine_deck.py:486-501: tailpipe thrust is added to net thrust. -/
def addTailpipe (s : DeckSt) : DeckSt :=
  if EVar.tailpipeThrust ∈ s.vars then
    if EVar.thrust ∈ s.vars then
      ⟨s.vars, Dict.set s.data .thrust (List.zipWith (· + ·) (s.col .thrust) (s.col .tailpipeThrust))⟩
    else ⟨s.vars ++ [.thrust], Dict.set s.data .thrust (s.col .tailpipeThrust)⟩
  else s

/-- `engine_variables.pop(v); self.data.pop(v)` if present.
Part of the model of aviary/subsystems/propulsion/engine_deck.py:503-527. -/
def popVar (v : EVar) (s : DeckSt) : DeckSt :=
  if v ∈ s.vars then ⟨s.vars.filter (· ≠ v), s.data.filter (fun kv => kv.1 ≠ v)⟩ else s

/-- aviary/subsystems/propulsion/engine_deck.py:503-527: remove the helper variables and, if not quiet, the corrected shaft power when both are
present. -/
def popVars (quiet : Bool) (s : DeckSt) : DeckSt :=
  let s := popVar .tailpipeThrust (popVar .grossThrust (popVar .ramDrag s))
  if EVar.shaftPower ∈ s.vars ∧ EVar.shaftPowerCorrected ∈ s.vars ∧ quiet = false then
    popVar .shaftPowerCorrected s
  else s

/-- aviary/subsystems/propulsion/engine_deck.py:531-541: the check for required variables. -/
def checkRequired (required vars : List EVar) : Except Err Unit :=
  if required.all (· ∈ vars) then .ok ()
  else
    let missing := vars.filter (· ∈ required)
    if missing = [] then .error .userWarning else .ok ()

/-- `array[keep_idx]`: IndexError when an index is past the end.
Part of the model of aviary/subsystems/propulsion/engine_deck.py:543-546. -/
def takeIdx (xs : List ℚ) : List ℕ → Except Err (List ℚ)
  | [] => .ok []
  | i :: is =>
    match xs[i]?, takeIdx xs is with
    | some x, .ok r => .ok (x :: r)
    | _, _ => .error .indexError

/-- `for key in data: data[key] = data[key][keep_idx]`.
Part of the model of aviary/subsystems/propulsion/engine_deck.py:543-546. -/
def takeAll (is : List ℕ) : List (EVar × List ℚ) → Except Err (List (EVar × List ℚ))
  | [] => .ok []
  | (k, xs) :: d =>
    match takeIdx xs is, takeAll is d with
    | .ok a, .ok b => .ok ((k, a) :: b)
    | .error e, _ => .error e
    | _, .error e => .error e

/-- `np.where(data >= 0)`. Part of the model of aviary/subsystems/propulsion/engine_deck.py:543-546. -/
def keepIdx (xs : List ℚ) : List ℕ :=
  (List.range xs.length).filter (fun i => decide (0 ≤ xs.getD i 0))

/-- aviary/subsystems/propulsion/engine_deck.py:543-546: drop the points with negative thrust. -/
def dropNegative (ignoreNeg : Bool) (s : DeckSt) : Except Err DeckSt :=
  if ignoreNeg then do
    let d ← takeAll (keepIdx (s.col .thrust)) s.data
    .ok ⟨s.vars, d⟩
  else .ok s

/-- aviary/subsystems/propulsion/engine_deck.py:548-553: unused columns become zeros; the result also holds `model_length`. -/
def fillZeros (s : DeckSt) : DeckSt × ℕ :=
  let n := (s.col .altitude).length
  (⟨s.vars, s.data.map (fun kv => if kv.2.length = 0 then (kv.1, List.replicate n 0) else kv)⟩, n)

/-- `_check_data`, aviary/subsystems/propulsion/engine_deck.py:419-556 (warnings left out, units are all default units). -/
def checkData (required : List EVar) (ignoreNeg quiet : Bool) (s : DeckSt) : Except Err (DeckSt × ℕ) := do
  let s ← netThrust s
  let s := popVars quiet (addTailpipe s)
  checkRequired required s.vars
  let s ← dropNegative ignoreNeg s
  .ok (fillZeros s)

end Verif
