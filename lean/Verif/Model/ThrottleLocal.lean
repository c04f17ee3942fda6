import Verif.Model.EngineDeck

/-!
# Throttles normalised per flight condition

Hand-written model of the loop of `_normalize_throttle`, aviary/subsystems/propulsion/engine_deck.py:1409-1534. A column of the deck is a
function of its points.
-/

namespace Verif.ThrottleLocal

/-- One line `packed[M, A]` of a packed column: what was written, and zeros, aviary/subsystems/propulsion/engine_deck.py:1596-1611. -/
def packedRow (ws : List PackWrite) (dmax : ℕ) (f : DeckPt → ℚ) (M A : ℕ) : List ℚ :=
  (List.range dmax).map fun D =>
    match ws.find? (fun w => decide (w.1 = (M, A, D))) with
    | some w => f w.2
    | none => 0

/-- What the loop collects: the column, the smallest and the largest value per flight condition,
aviary/subsystems/propulsion/engine_deck.py:1468-1480. -/
structure Out where
  col : List ℚ
  los : List ℚ
  his : List ℚ
  deriving DecidableEq, Repr

/-- The loop over the flight conditions with data, aviary/subsystems/propulsion/engine_deck.py:1487-1509; `norm` is `normalize` for throttles
and `_hybrid_throttle_norm` for hybrid throttles. -/
def loop (norm : List ℚ → Except Err (List ℚ)) (c : CountSt) (row : ℕ → ℕ → List ℚ) : List (ℕ × ℕ) → Except Err Out
  | [] => .ok ⟨[], [], []⟩
  | (M, A) :: l =>
    if c.idx.get M A = 0 then loop norm c row l
    else do
      let n ← norm ((row M A).take (c.idx.get M A + 1))
      let lo ← pyMin n
      let hi ← pyMax n
      let r ← loop norm c row l
      .ok ⟨n ++ r.col, lo :: r.los, hi :: r.his⟩

/-- A column normalised per flight condition, for a sorted deck, aviary/subsystems/propulsion/engine_deck.py:1481-1509, 1516-1519. -/
def normLocal (norm : List ℚ → Except Err (List ℚ)) (srt : SortBy) (f : DeckPt → ℚ) (deck : List DeckPt) : Except Err Out :=
  match countData srt countInit deck with
  | .error e => .error e
  | .ok c => do
    let ws ← packData srt deck
    loop norm c (packedRow ws c.maxData f) (gridMA c.machCount c.maxAlt)

end Verif.ThrottleLocal
