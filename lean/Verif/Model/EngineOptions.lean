import Verif.Model.Dict
import Mathlib.Data.List.Basic
import Mathlib.Data.Int.Notation

/-!
# Model of `preprocess_propulsion` (aviary/utils/preprocessors.py:726-968)
-/

namespace Verif

/-- Engine counts of one engine model. Part of the model of aviary/utils/preprocessors.py:893-953. -/
structure Mounts where
  num : ℤ
  fuse : ℤ
  wing : ℤ
  deriving DecidableEq, Repr

/-- The loop body of the consistency check for one engine model, aviary/utils/preprocessors.py:893-953 (warnings left out). -/
def fixMounts (m : Mounts) : Mounts :=
  let tot := m.fuse + m.wing
  if tot = 0 then
    if m.num > 1 then { m with wing := m.num } else { m with fuse := m.num }
  else if tot > m.num then { m with num := tot }
  else if tot < m.num then
    let unspec := m.num - m.fuse - m.wing
    if unspec > 1 then { m with wing := m.wing + unspec }
    else if unspec = 1 ∧ m.wing ≠ 0 then { m with fuse := m.fuse + unspec }
    else m
  else m

/-- Totals over all engine models, aviary/utils/preprocessors.py:955-968. -/
structure EngineTotals where
  engines : List Mounts
  totalNum : ℤ
  totalFuse : ℤ
  totalWing : ℤ
  deriving DecidableEq, Repr

/-- aviary/utils/preprocessors.py:874-968: `n` engine models; each of the three arrays is given or not (then zeros).
Given arrays shorter than `n` raise an IndexError. -/
def countEngines (n : ℕ) (num fuse wing : Option (List ℤ)) : Except Err EngineTotals :=
  let num := num.getD (List.replicate n 0)
  let fuse := fuse.getD (List.replicate n 0)
  let wing := wing.getD (List.replicate n 0)
  if num.length < n ∨ fuse.length < n ∨ wing.length < n then .error .indexError
  else
    let ms := (List.range n).map (fun i => fixMounts ⟨num.getD i 0, fuse.getD i 0, wing.getD i 0⟩)
    -- entries beyond the engine models are left as they are and are included in the sums
    .ok ⟨ms, (ms.map Mounts.num ++ num.drop n).sum, (ms.map Mounts.fuse ++ fuse.drop n).sum,
      (ms.map Mounts.wing ++ wing.drop n).sum⟩

/-- A value of an option: a scalar or an iterable. Part of the model of aviary/utils/preprocessors.py:822-862. -/
inductive SVal (α : Type)
  | scalar (a : α)
  | iter (xs : List α)
  deriving DecidableEq, Repr

/-- One turn of the vectorisation loop for engine `i`, aviary/utils/preprocessors.py:822-862: what is appended to `vec`.
`eng`: the value in the engine model's options; `opt`: the value in `aviary_options`.  Only the shapes that can be
put in a flat vector are modelled: an engine-model value is a scalar, or an iterable of a multidimensional
variable. -/
def vecPiece {α : Type} (dflt : α) (multi : Bool) (opt : Option (SVal α)) (i : ℕ) (eng : Option (SVal α)) :
    Except Err (List α) :=
  match eng with
  | some (.scalar a) => .ok [a]
  | some (.iter xs) => if multi then .ok xs else .error .valueError
  | none =>
    match opt with
    | none => .ok [dflt]
    | some (.scalar a) => .ok [a]
    | some (.iter xs) =>
      if xs.length > 1 then
        if multi then .ok xs else .ok [xs.getD i dflt]
      else .ok xs

/-- The vector stored for one variable, aviary/utils/preprocessors.py:811-872. -/
def vectorize {α : Type} (dflt : α) (multi : Bool) (opt : Option (SVal α)) :
    ℕ → List (Option (SVal α)) → Except Err (List α)
  | _, [] => .ok []
  | i, e :: es =>
    match vecPiece dflt multi opt i e, vectorize dflt multi opt (i + 1) es with
    | .ok a, .ok b => .ok (a ++ b)
    | .error e, _ => .error e
    | _, .error e => .error e

end Verif
