import Verif.Model.Dict

/-!
# Variable hierarchies (nested classes) and their merge

Models /repo/aviary/utils/compare_hierarchies.py:5-188 and /repo/aviary/utils/merge_hierarchies.py:6-208.

Classes are objects with identity, so the model has a heap: a class is a reference, its `vars()` is a
dictionary.  Simplifications: attribute lookup on a name that is in `vars()` needs no inheritance; Python sets
are iterated in dictionary order; recursion is bounded by fuel, running out of it is Python's `RecursionError`
(`runtimeError`).
-/

namespace Verif

/-- What a class attribute can be: a string variable, an inner class, something else (ignored by the code).
Part of the model of aviary/utils/compare_hierarchies.py:105-140. -/
inductive HAttr
  | str (s : String)
  | cls (ref : Nat)
  | other
  deriving DecidableEq

/-- `HHeap`: part of the model of aviary/utils/compare_hierarchies.py:105-140. -/
abbrev HHeap := Nat → Dict String HAttr

/-- aviary/utils/compare_hierarchies.py:59-70 / 73-83: names of the string variables (dunder names are left out of the
model's dictionaries). -/
def varNames (d : Dict String HAttr) : List String :=
  d.filterMap (fun p => match p.2 with
    | .str _ => some p.1
    | _ => none)

/-- aviary/utils/compare_hierarchies.py:61-62 / 75-76: names of the inner classes. -/
def innerNames (d : Dict String HAttr) : List String :=
  d.filterMap (fun p => match p.2 with
    | .cls _ => some p.1
    | _ => none)

/-- aviary/utils/compare_hierarchies.py:85-99: variables of the same name must have the same value. -/
def varsAgree (d1 d2 : Dict String HAttr) : Bool :=
  ((varNames d1).filter (fun k => decide (k ∈ varNames d2))).all
    (fun k => decide (Dict.get? d1 k = Dict.get? d2 k))

/-- aviary/utils/compare_hierarchies.py:101-103. -/
def overlap (d1 d2 : Dict String HAttr) : List String :=
  (innerNames d1).filter (fun k => decide (k ∈ innerNames d2))

/-- aviary/utils/compare_hierarchies.py:105-140 `recursive_comparison`, together with the `compare_inner_classes` call that
precedes each use of it. -/
def compareRec (h : HHeap) : Nat → Nat → Nat → Except Err Unit
  | 0, _, _ => .error .runtimeError
  | n + 1, a, b =>
    if varsAgree (h a) (h b) then
      (overlap (h a) (h b)).foldlM (fun _ k =>
        match Dict.get? (h a) k, Dict.get? (h b) k with
        | some (.cls x), some (.cls y) => compareRec h n x y
        | _, _ => .error .typeError) ()
    else .error .valueError

/-- aviary/utils/merge_hierarchies.py:6-51 `merge_attributes`: `setattr(base, attr, getattr(merge, attr))`. -/
def mergeAttrs (h : HHeap) (base m : Nat) (names : List String) : HHeap :=
  names.foldl (fun h k => match Dict.get? (h m) k with
    | some v => fun n => if n = base then Dict.set (h base) k v else h n
    | none => h) h

/-- aviary/utils/merge_hierarchies.py:54-112 `recursive_merge` for one pair of classes, which is also the body of
`merge_two_hierarchies` (115-153). -/
def mergeRec : Nat → HHeap → Nat → Nat → Except Err HHeap
  | 0, _, _, _ => .error .runtimeError
  | n + 1, h, base, m =>
    if varsAgree (h base) (h m) then
      let newVars := (varNames (h m)).filter (fun k => !decide (k ∈ varNames (h base)))
      let newInners := (innerNames (h m)).filter (fun k => !decide (k ∈ innerNames (h base)))
      let over := overlap (h base) (h m)
      let h1 := mergeAttrs h base m newVars
      let h2 := mergeAttrs h1 base m newInners
      over.foldlM (fun h k => match Dict.get? (h base) k, Dict.get? (h m) k with
        | some (.cls x), some (.cls y) => mergeRec n h x y
        | _, _ => .error .typeError) h2
    else .error .valueError

/-- What `merge_hierarchies` reads of the class objects besides `vars()`: the highest superclass of a class that
has one (`__mro__[-2]` when `len(__mro__) > 2`), and the core hierarchies it is a subclass of.
Part of the model of aviary/utils/compare_hierarchies.py:143-188. -/
structure MroInfo where
  super : Nat → Option Nat
  core : Nat → List Nat

/-- aviary/utils/compare_hierarchies.py:143-188 `compare_hierarchies_to_merge`. -/
def compareAll (mro : MroInfo) (fuel : Nat) (h : HHeap) (hs : List Nat) : Except Err Unit :=
  hs.foldlM (fun _ a => do
    (mro.core a).foldlM (fun _ c => compareRec h fuel a c) ()
    hs.foldlM (fun _ b => if a ≠ b then compareRec h fuel a b else .ok ()) ()) ()

/-- aviary/utils/merge_hierarchies.py:184-198: reject different superclasses, pick the first subclassed hierarchy. -/
def pickBase (mro : MroInfo) : List Nat → Option (Nat × Nat) → Except Err (Option Nat)
  | [], acc => .ok (acc.map (·.2))
  | a :: hs, none => match mro.super a with
    | some s => pickBase mro hs (some (s, a))
    | none => pickBase mro hs none
  | a :: hs, some (t, b) => match mro.super a with
    | some s => if s ≠ t then .error .valueError else pickBase mro hs (some (t, b))
    | none => pickBase mro hs (some (t, b))

/-- aviary/utils/merge_hierarchies.py:156-208 `merge_hierarchies`.  `copy.deepcopy` of a class object returns the class itself
(classes are atomic for `copy`), so the base is one of the inputs. -/
def mergeHier (mro : MroInfo) (fuel : Nat) (h : HHeap) (hs : List Nat) : Except Err (HHeap × Nat) := do
  compareAll mro fuel h hs
  let b ← pickBase mro hs none
  let base ← (match b, hs with
    | some b, _ => .ok b
    | none, a :: _ => .ok a
    | none, [] => .error .indexError)
  let h' ← hs.foldlM (fun h m => mergeRec fuel h base m) h
  pure (h', base)

end Verif
