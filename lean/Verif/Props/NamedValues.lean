import Verif.Model.NamedValues
import Verif.Lemmas.Dict
import Mathlib.Tactic.FieldSimp
import Mathlib.Tactic.Ring
import Mathlib.Algebra.Field.Rat
import Mathlib.Data.List.Induction

/-!
# C01–C03, C05, C31: the option container `NamedValues`

`look` and `born` are the specification: they are defined on the history of calls only (newest call
first) and never mention the container.
-/

namespace Verif.NV

/-- The item a key holds after a history (newest call first): that of the last accepted `set_val` since the
key was last deleted or the container cleared. -/
def look : List Op → String → Option Item
  | [], _ => none
  | .set k v u :: h, q => match u with
    | some u => if k = q then some (v, u) else look h q
    | none => look h q
  | .del k :: h, q => if k = q then none else look h q
  | .clear :: _, _ => none

/-- The number of calls that preceded the accepted `set_val` which last inserted the key while it was
absent. -/
def born : List Op → String → Nat
  | [], _ => 0
  | .set k _ u :: h, q =>
    if u.isSome ∧ k = q ∧ look h q = none then h.length else born h q
  | _ :: h, q => born h q

theorem run_append (ops : List Op) (o : Op) : run (ops ++ [o]) = (step (run ops) o).1 := by
  simp [run]

theorem step_nodup (s : NV) (o : Op) (h : (Dict.keys s).Nodup) : (Dict.keys (step s o).1).Nodup := by
  cases o with
  | set k v u =>
    cases u with
    | none => simpa [step, setVal, checkUnits, bind, Except.bind]
    | some u => simpa [step, setVal, checkUnits, bind, Except.bind] using Dict.nodup_set s k (v, u) h
  | del k =>
    simp only [step, delete]
    split <;> rename_i hh <;> split at hh <;> simp_all
    subst hh; exact Dict.nodup_erase s k h
  | clear => simp [step, clear, Dict.keys]

theorem run_nodup (ops : List Op) : (Dict.keys (run ops)).Nodup := by
  induction ops using List.reverseRecOn with
  | nil => simp [run, Dict.keys]
  | append_singleton ops o ih => rw [run_append]; exact step_nodup _ _ ih

theorem get?_step (s : NV) (hs : (Dict.keys s).Nodup) (o : Op) (h : List Op) (q : String)
    (ih : ∀ q, Dict.get? s q = look h q) : Dict.get? (step s o).1 q = look (o :: h) q := by
  cases o with
  | set k v u =>
    cases u with
    | none => simpa [step, setVal, checkUnits, bind, Except.bind, look] using ih q
    | some u =>
      simp only [step, setVal, checkUnits, bind, Except.bind, look]
      rw [Dict.get?_set, ih]
  | del k =>
    simp only [step, delete, look]
    by_cases hk : Dict.has s k
    · simp only [hk, if_true]
      rw [Dict.get?_erase s hs, ih]
    · simp only [hk]
      have : Dict.get? s k = none := by simpa [Dict.has] using hk
      by_cases hq : k = q
      · subst hq; simpa using this
      · simpa [hq] using ih q
  | clear => simp [step, clear, look]

/-- **C01 (lookup).** After any history of `set_val` / `delete` / `clear` calls, accepted or not,
`get_item` returns the pair of the last accepted `set_val` and raises `KeyError` when there is none. -/
theorem getItem_run (ops : List Op) (q : String) :
    getItem (run ops) q = match look ops.reverse q with
      | some it => .ok it
      | none => .error .keyError := by
  have key : ∀ q, Dict.get? (run ops) q = look ops.reverse q := by
    induction ops using List.reverseRecOn with
    | nil => intro q; simp [run, look]
    | append_singleton ops o ih =>
      intro q
      rw [run_append, List.reverse_append]
      exact get?_step _ (run_nodup ops) o _ q ih
  rw [getItem, key]
  cases look ops.reverse q <;> rfl

theorem get?_run (ops : List Op) (q : String) : Dict.get? (run ops) q = look ops.reverse q := by
  have := getItem_run ops q
  rw [getItem] at this
  cases h : Dict.get? (run ops) q <;> cases h2 : look ops.reverse q <;> simp_all

/-- **C01 (membership).** `key in nv` exactly when the history says the key holds a value. -/
theorem mem_run (ops : List Op) (q : String) :
    q ∈ Dict.keys (run ops) ↔ (look ops.reverse q).isSome := by
  rw [← get?_run, Dict.get?_isSome_iff]

theorem look_mem_born_lt (h : List Op) (q : String) (hq : (look h q).isSome) : born h q < h.length := by
  induction h with
  | nil => simp [look] at hq
  | cons o h ih =>
    cases o with
    | set k v u =>
      cases u with
      | none => simp only [look] at hq; simp only [born, List.length_cons]; have := ih hq; simp; omega
      | some u =>
        simp only [born, List.length_cons]
        by_cases hk : k = q ∧ look h q = none
        · simp [hk]
        · have h1 : ¬ ((some u).isSome = true ∧ k = q ∧ look h q = none) := by simpa using hk
          rw [if_neg h1]
          have : (look h q).isSome := by
            by_cases hk2 : k = q
            · have : ¬ look h q = none := fun e => hk ⟨hk2, e⟩
              cases hl : look h q <;> simp_all
            · simpa [look, hk2] using hq
          have := ih this; omega
    | del k =>
      simp only [look] at hq
      by_cases hk : k = q
      · simp [hk] at hq
      · simp [hk] at hq; have := ih hq; simp [born]; omega
    | clear => simp [look] at hq

/-- **C01 (order).** Iteration visits each key once, in the order in which the present keys were last
inserted; together with `mem_run` and `getItem_run` this determines `items()` completely. -/
theorem order_run (ops : List Op) :
    (Dict.keys (run ops)).Nodup ∧
    (Dict.keys (run ops)).Pairwise (fun a b => born ops.reverse a < born ops.reverse b) := by
  refine ⟨run_nodup ops, ?_⟩
  induction ops using List.reverseRecOn with
  | nil => simp [run, Dict.keys]
  | append_singleton ops o ih =>
    rw [run_append, List.reverse_append]
    simp only [List.reverse_cons, List.reverse_nil, List.nil_append, List.cons_append]
    have hm := mem_run ops
    cases o with
    | set k v u =>
      cases u with
      | none => simpa [step, setVal, checkUnits, bind, Except.bind, born] using ih
      | some u =>
        simp only [step, setVal, checkUnits, bind, Except.bind]
        rw [Dict.keys_set]
        by_cases hk : k ∈ Dict.keys (run ops)
        · rw [if_pos hk]
          have hl := (hm k).1 hk
          refine ih.imp_of_mem ?_
          intro a b ha hb hab
          have hla := (hm a).1 ha
          have hlb := (hm b).1 hb
          have ea : look ops.reverse a ≠ none := by cases h : look ops.reverse a <;> simp_all
          have eb : look ops.reverse b ≠ none := by cases h : look ops.reverse b <;> simp_all
          simpa [born, ea, eb] using hab
        · rw [if_neg hk]
          have hl : look ops.reverse k = none := by
            cases h : look ops.reverse k with
            | none => rfl
            | some it => exact absurd ((hm k).2 (by simp [h])) hk
          rw [List.pairwise_append]
          refine ⟨?_, by simp, ?_⟩
          · refine ih.imp_of_mem ?_
            intro a b ha hb hab
            have ea : look ops.reverse a ≠ none := by
              have := (hm a).1 ha; cases h : look ops.reverse a <;> simp_all
            have eb : look ops.reverse b ≠ none := by
              have := (hm b).1 hb; cases h : look ops.reverse b <;> simp_all
            simpa [born, ea, eb] using hab
          · intro a ha b hb
            simp only [List.mem_singleton] at hb
            subst hb
            have hla := (hm a).1 ha
            have ea : look ops.reverse a ≠ none := by cases h : look ops.reverse a <;> simp_all
            have := look_mem_born_lt _ _ hla
            simpa [born, ea, hl] using this
    | del k =>
      simp only [step, delete]
      by_cases hk : Dict.has (run ops) k
      · simp only [hk, if_true, Dict.keys_erase, born]
        exact ih.sublist List.erase_sublist
      · simpa [hk, born] using ih
    | clear => simp [step, clear, Dict.keys]

/-- **C01 (failed calls).** A call raises exactly when its units are not a string (`set_val`, `TypeError`)
or its key is absent (`delete`, `KeyError`), and then the container is unchanged. -/
theorem step_error (s : NV) (o : Op) :
    (step s o).2 = (match o with
      | .set _ _ u => if u.isSome then none else some .typeError
      | .del k => if k ∈ Dict.keys s then none else some .keyError
      | .clear => none) ∧
    ((step s o).2 ≠ none → (step s o).1 = s) := by
  cases o with
  | set k v u => cases u <;> simp [step, setVal, checkUnits, bind, Except.bind]
  | del k =>
    have := Dict.get?_isSome_iff s k
    by_cases hk : Dict.has s k
    · have hk' : k ∈ Dict.keys s := this.1 (by simpa [Dict.has] using hk)
      simp [step, delete, hk, hk']
    · have hk' : k ∉ Dict.keys s := fun h => hk (by simpa [Dict.has] using this.2 h)
      simp [step, delete, hk, hk']
  | clear => simp [step]

/-- Non-vacuity: a history with overwrite, rejected call, deletion and re-insertion. -/
example :
    let ops : List Op := [.set "a" (.int 1) (some "ft"), .set "b" (.int 2) (some "m"),
      .set "a" (.int 3) none, .set "b" (.int 4) (some "ft"), .del "a", .set "a" (.int 5) (some "s")]
    Dict.keys (run ops) = ["b", "a"] ∧ look ops.reverse "a" = some (.int 5, "s") ∧
    look ops.reverse "b" = some (.int 4, "ft") ∧ born ops.reverse "b" = 1 ∧
    born ops.reverse "a" = 5 := by
  refine ⟨by decide, ?_, ?_, by decide, by decide⟩ <;> simp [look]

/-! ## C02: reading with units -/

/-- **C02 (same units).** Whatever is stored with `set_val(k, v, u)` is returned unchanged by
`get_val(k, u)`. -/
theorem getVal_setVal_same (db : UnitDB) (s s' : NV) (k u : String) (v : PVal)
    (h : setVal s k v (some u) = .ok s') : getVal db s' k (some u) = .ok v := by
  simp only [setVal, checkUnits, bind, Except.bind, Except.ok.injEq] at h
  subst h
  simp [getVal, checkUnits, bind, Except.bind]

/-- **C02 (frame).** Setting one key does not change what any other key reads as, in any units. -/
theorem getVal_setVal_other (db : UnitDB) (s s' : NV) (k k' u : String) (w : Option String) (v : PVal)
    (h : setVal s k v (some u) = .ok s') (hk : k ≠ k') : getVal db s' k' w = getVal db s k' w := by
  simp only [setVal, checkUnits, bind, Except.bind, Except.ok.injEq] at h
  subst h
  cases w <;> simp [getVal, checkUnits, bind, Except.bind, Dict.get?_set_ne _ _ hk]

theorem convertUnits_of_ne (db : UnitDB) (x : ℚ) (a b : String) (u w : UnitDef)
    (ha : a ≠ "") (hb : b ≠ "") (hu : db a = some u) (hw : db b = some w) (hd : u.dim = w.dim) :
    convertUnits db x a b =
      .ok ((x + (u.offset - w.offset * w.factor / u.factor)) * (u.factor / w.factor)) := by
  simp [convertUnits, ha, hb, hu, hw, hd]

/-- **C02 (numbers).** Reading a number stored in `a` in a different compatible unit `b` succeeds, gives the
value that denotes the same physical quantity in base units, and converting it back gives the stored number. -/
theorem getVal_convert (db : UnitDB) (hdb : db.Sane) (s : NV) (k a b : String) (x : ℚ) (u w : UnitDef)
    (hs : Dict.get? s k = some (.float x, a)) (hab : a ≠ b) (ha : a ≠ "") (hb : b ≠ "")
    (hu : db a = some u) (hw : db b = some w) (hd : u.dim = w.dim) :
    ∃ y, getVal db s k (some b) = .ok (.float y) ∧
      (y + w.offset) * w.factor = (x + u.offset) * u.factor ∧
      convertUnits db y b a = .ok x := by
  have fu := hdb a u hu
  have fw := hdb b w hw
  refine ⟨(x + (u.offset - w.offset * w.factor / u.factor)) * (u.factor / w.factor), ?_, ?_, ?_⟩
  · simp only [getVal, checkUnits, bind, Except.bind, hs, ne_eq, hab, not_false_eq_true, if_true]
    simp only [wrappedConvert, convertLeaf, ha, hb, or_self, if_false]
    rw [convertUnits_of_ne db x a b u w ha hb hu hw hd]; rfl
  · field_simp; ring
  · rw [convertUnits_of_ne db _ b a w u hb ha hw hu hd.symm]
    congr 1; field_simp; ring

/-- **C02 (errors).** The three error cases of `get_val`, in the order in which the code checks them. -/
theorem getVal_errors (db : UnitDB) (s : NV) (k : String) :
    getVal db s k none = .error .typeError ∧
    (∀ b, k ∉ Dict.keys s → getVal db s k (some b) = .error .keyError) ∧
    (∀ a b x u w, Dict.get? s k = some (.float x, a) → a ≠ "" → b ≠ "" → db a = some u → db b = some w →
      u.dim ≠ w.dim → getVal db s k (some b) = .error .typeError) ∧
    (∀ a b x, Dict.get? s k = some (.float x, a) → a ≠ b → a ≠ "" → b ≠ "" → (db a = none ∨ db b = none) →
      getVal db s k (some b) = .error .valueError) := by
  refine ⟨rfl, ?_, ?_, ?_⟩
  · intro b hk
    simp [getVal, checkUnits, bind, Except.bind, (Dict.get?_eq_none_iff s k).2 hk]
  · intro a b x u w hs ha hb hu hw hd
    have hab : a ≠ b := by rintro rfl; rw [hu] at hw; cases hw; exact hd rfl
    simp [getVal, checkUnits, bind, Except.bind, hs, hab, wrappedConvert, convertLeaf, ha, hb,
      convertUnits, hu, hw, hd, Except.map]
  · intro a b x hs hab ha hb h
    simp only [getVal, checkUnits, bind, Except.bind, hs, ne_eq, hab, not_false_eq_true, if_true,
      wrappedConvert, convertLeaf, ha, hb, or_self, if_false, convertUnits]
    rcases h with h | h
    · rw [h]; rfl
    · rw [h]; cases db a <;> rfl

/-- Non-vacuity of the unit theorems: feet, metres, seconds and an offset scale. -/
def exampleDB : UnitDB := fun s =>
  if s = "ft" then some ⟨0, 3048 / 10000, 0⟩ else if s = "m" then some ⟨0, 1, 0⟩
  else if s = "s" then some ⟨1, 1, 0⟩
  else if s = "degF" then some ⟨2, 5 / 9, 45967 / 100⟩ else if s = "degK" then some ⟨2, 1, 0⟩ else none

theorem exampleDB_sane : exampleDB.Sane := by
  intro s u h
  unfold exampleDB at h
  split at h; · cases h; norm_num
  split at h; · cases h; norm_num
  split at h; · cases h; norm_num
  split at h; · cases h; norm_num
  split at h; · cases h; norm_num
  cases h

example : getVal exampleDB [("T", (.float 32, "degF"))] "T" (some "degK")
    = .ok (.float (27315 / 100)) := by
  simp only [getVal, checkUnits, bind, Except.bind, Dict.get?, wrappedConvert, convertLeaf, convertUnits,
    exampleDB, Except.map]
  simp
  norm_num

/-! ## C03: `update` -/

/-- **C03.** For a dictionary, an iterable, a container of the same class, or any container given to a
`NamedValues` object (`AviaryValues` is a subclass), `update` is the same as calling `set_val` on the pairs in order, then on the keyword pairs. -/
theorem update_eq_sequential (self : Cls) (set : Setter) (s : NV) (src : Source) (kw : List Upd)
    (h : ∀ c us, src = .container c us → c = self ∨ self = .namedValues) :
    update self set s (some src) kw = applyAll set s (src.items ++ kw) ∧
    update self set s none kw = applyAll set s kw := by
  have app : ∀ (us vs : List Upd) (s : NV), applyAll set s (us ++ vs) =
      (match applyAll set s us with
        | (s', none) => applyAll set s' vs
        | (s', some e) => (s', some e)) := by
    intro us
    induction us with
    | nil => intro vs s; simp [applyAll]
    | cons u us ih =>
      intro vs s
      simp only [List.cons_append, applyAll]
      cases set s u with
      | error e => rfl
      | ok s' => exact ih vs s'
  have hsrc : applySource self set s src = applyAll set s src.items := by
    cases src with
    | container c us =>
      have hs : c.isSub self = true := by
        rcases h c us rfl with rfl | rfl <;> cases c <;> rfl
      simp [applySource, hs, Source.items]
    | dict us => rfl
    | iterable us => rfl
  constructor
  · rw [app]
    unfold update
    split
    · rename_i hh
      simp only [Option.map_some, Option.getD_some, List.isEmpty_iff] at hh
      rw [hh.1, hh.2]; simp [applyAll]
    · simp only [hsrc]
      rcases applyAll set s src.items with ⟨s', _ | e⟩ <;> rfl
  · unfold update
    split
    · rename_i hh
      simp only [List.isEmpty_iff] at hh
      rw [hh.2]; simp [applyAll]
    · rfl

/-- **C03 (failure position).** If the `n`-th pair is the first one `set_val` rejects, exactly the pairs
before it have been applied and that pair's exception propagates; without a rejected pair all are applied. -/
theorem applyAll_prefix (set : Setter) (s s' : NV) (pre post : List Upd) (bad : Upd) (e : Err)
    (hpre : applyAll set s pre = (s', none)) (hbad : set s' bad = .error e) :
    applyAll set s (pre ++ bad :: post) = (s', some e) := by
  induction pre generalizing s with
  | nil =>
    simp only [applyAll, Prod.mk.injEq, and_true] at hpre
    subst hpre; simp [applyAll, hbad]
  | cons u us ih =>
    simp only [List.cons_append, applyAll] at hpre ⊢
    cases hu : set s u with
    | error e' => simp [hu] at hpre
    | ok t => simp only [hu] at hpre ⊢; exact ih t hpre

/-- **C03 (result).** After a successful `update` of a plain `NamedValues`, every key mentioned holds its
last mentioned pair and every other key is unchanged. -/
theorem applyAll_base_get (s s' : NV) (us : List Upd) (h : applyAll baseSetter s us = (s', none))
    (q : String) :
    Dict.get? s' q = match us.reverse.find? (fun u => u.key = q) with
      | some u => some (u.val, u.units.getD "")
      | none => Dict.get? s q := by
  induction us generalizing s with
  | nil => simp only [applyAll, Prod.mk.injEq] at h; simp [h.1]
  | cons u us ih =>
    simp only [applyAll, baseSetter] at h
    cases hu : u.units with
    | none => simp [setVal, hu, checkUnits, bind, Except.bind] at h
    | some w =>
      simp only [setVal, hu, checkUnits, bind, Except.bind] at h
      rw [ih _ h, List.reverse_cons, List.find?_append]
      cases hf : us.reverse.find? (fun u => u.key = q) with
      | some x => simp
      | none =>
        by_cases hk : u.key = q
        · simp [hk, hu, Dict.get?_set]
        · simp [hk, Dict.get?_set]

/-- **C03 violated for mixed classes.** The documentation lists `NamedValues` among the supported
collections, but updating an `AviaryValues` from a non-empty plain `NamedValues` raises `TypeError`. -/
theorem update_mixed_violated (set : Setter) (s : NV) (u : Upd) (us kw : List Upd) :
    update .aviaryValues set s (some (.container .namedValues (u :: us))) kw = (s, some .typeError) := by
  simp [update, applySource, Cls.isSub, Source.items]

example : update .namedValues baseSetter [("a", (.int 1, "ft"))]
    (some (.iterable [⟨"b", .int 2, some "m"⟩, ⟨"c", .int 3, none⟩, ⟨"d", .int 4, some "m"⟩])) []
    = ([("a", (.int 1, "ft")), ("b", (.int 2, "m"))], some .typeError) := by
  simp [update, applySource, applyAll, baseSetter, setVal, checkUnits, bind, Except.bind, Dict.set,
    Source.items]

/-! ## C31: copies -/

/-- **C31 (deepcopy).** No sequence of calls on the deep copy changes the original, and none on the original
changes the copy; initially they are equal. -/
theorem deepcopy_independent (h : Heap) (r : Ref) (hr : r < h.cells.length) (ops : List Op) :
    let (h', c) := h.deepcopy r
    h'.read c = h.read r ∧
    (ops.foldl (fun g o => g.call c o) h').read r = h.read r ∧
    (ops.foldl (fun g o => g.call r o) h').read c = h.read r := by
  simp only [Heap.deepcopy]
  have base1 : (⟨h.cells ++ [h.read r]⟩ : Heap).read h.cells.length = h.read r := by
    simp [Heap.read]
  have base2 : (⟨h.cells ++ [h.read r]⟩ : Heap).read r = h.read r := by
    simp [Heap.read, List.getElem?_append, hr]
  have other : ∀ (ops : List Op) (g : Heap) (a b : Nat), a ≠ b →
      (ops.foldl (fun g o => g.call a o) g).read b = g.read b := by
    intro ops
    induction ops with
    | nil => intros; rfl
    | cons o ops ih =>
      intro g a b hab
      simp only [List.foldl_cons]
      rw [ih _ _ _ hab]
      simp [Heap.call, Heap.write, Heap.read, List.getElem?_set, hab]
  exact ⟨base1, by rw [other _ _ _ _ (Nat.ne_of_gt hr), base2],
    by rw [other _ _ _ _ (Nat.ne_of_lt hr), base1]⟩

/-- **C31 violated for `copy`.** Setting a value in the result of `copy()` changes the original. -/
theorem copy_aliases_violated : ∃ (h : Heap) (r : Ref) (o : Op),
    let (h', c) := h.copy r
    (h'.call c o).read r ≠ h.read r := by
  refine ⟨⟨[[]]⟩, 0, .set "a" (.int 1) (some "ft"), ?_⟩
  simp [Heap.copy, Heap.call, Heap.write, Heap.read, step, setVal, checkUnits, bind, Except.bind,
    Dict.set]

/-- In general the copy and the original are the same object state after any calls on the copy. -/
theorem copy_tracks_original (h : Heap) (r : Ref) (ops : List Op) :
    let (h', c) := h.copy r
    (ops.foldl (fun g o => g.call c o) h').read c = (ops.foldl (fun g o => g.call r o) h).read r := rfl

end Verif.NV
