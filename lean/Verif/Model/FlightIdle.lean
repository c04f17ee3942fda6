import Verif.Model.EngineDeck

/-!
# Model of `EngineDeck._generate_flight_idle` (aviary/subsystems/propulsion/engine_deck.py:558-765)

One flight condition `(M, A)`; decks without hybrid throttle (`num_points = 1`).  A column is the slice
`packed_data[key][M, A]`, i.e. the points of this flight condition followed by the zero padding of the packed array.
-/

namespace Verif

/-- The nested function `_extrapolate`, aviary/subsystems/propulsion/engine_deck.py:568-591. -/
def extrapolate (term : ℚ) (ys : List ℚ) : ℚ :=
  let y0 := ys.getD 0 0
  let y1 := ys.getD 1 0
  if y0 = 0 ∧ y1 = 0 then 0 else y0 + (y1 - y0) * term

/-- The limits of an idle value, aviary/subsystems/propulsion/engine_deck.py:701-707 and 745-752; `ys[-1]` is the last entry of the padded slice. -/
def clampIdle (lo hi : ℚ) (ys : List ℚ) (v : ℚ) : ℚ :=
  let mn := ys.getLastD 0 * lo
  let mx := ys.getLastD 0 * hi
  if v < mn then mn else if v > mx then mx else v

/-- Idle values of one flight condition: those of the directly computed variables (thrust, shaft powers) and those of
the other dependent variables. Part of the model of aviary/subsystems/propulsion/engine_deck.py:722-740. -/
structure IdlePt where
  direct : List ℚ
  other : List ℚ
  deriving DecidableEq

/-- The loop over the directly computed variables, aviary/subsystems/propulsion/engine_deck.py:722-740: idle values and the extrapolation term of
the last one.  Dividing by equal lowest points is the error `zeroDivision` (numpy: inf/nan). -/
def idleDirect (fr : ℚ) (n : ℕ) : Option ℚ → List (List ℚ) → Except Err (List ℚ × Option ℚ)
  | term, [] => .ok ([], term)
  | _, d :: ds =>
    let idle := d.getD (n - 1) 0 * fr
    let den := d.getD 1 0 - d.getD 0 0
    if den = 0 then .error .zeroDivision
    else do
      let (vs, t) ← idleDirect fr n (some ((idle - d.getD 0 0) / den)) ds
      .ok (idle :: vs, t)

/-- The body of the loop over flight conditions; `n = data_indices[M, A]`; `none` = no idle point is added.
Without directly computed variables `extrap_term` is unbound (or stale) when it is needed.
Part of the model of aviary/subsystems/propulsion/engine_deck.py:722-740. -/
def idlePoint (fr lo hi : ℚ) (n : ℕ) (direct others : List (List ℚ)) : Except Err (Option IdlePt) :=
  if n = 0 ∨ direct.any (fun d => decide (d.getD 0 0 ≤ thrustTol)) then .ok none
  else if n = 1 then
    .ok (some ⟨direct.map (fun d => d.getD 0 0 * fr), others.map (fun y => clampIdle lo hi y (y.getD 0 0 * fr))⟩)
  else do
    let (vs, t) ← idleDirect fr n none direct
    match t with
    | none => if others = [] then .ok (some ⟨vs, []⟩) else .error .unboundLocal
    | some t => .ok (some ⟨vs, others.map (fun y => clampIdle lo hi y (extrapolate t y))⟩)

end Verif
