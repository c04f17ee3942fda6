import Mathlib.Data.List.Basic
import Mathlib.Tactic.Ring
import Mathlib.Algebra.Order.Ring.Rat
import Mathlib.Algebra.BigOperators.Group.List.Basic
import Verif.Lemmas.Dict
import Verif.Model.PropMission

/-! Engine models and the propulsion groups (C108). -/

namespace Verif.PropMission

open Verif (Dict Err)

variable {ν : Type}

/-! ## C108 Engine models and the propulsion groups -/

/-! ### Options -/

/-- The entries of a container. -/
def entries : Val ν → List (Val ν)
  | .scalar _ => []
  | .seq _ l => l

/-- What may be given for an engine variable: a container needs a variable that is known and a first
entry; for a scalar variable that is no container; for a vector variable in an array it has one number. -/
def Accepts (md : String → Option Bool) (key : String) (v : Val ν) : Prop :=
  engineKey key = true → v.isSeq = true → ∃ iter x, md key = some iter ∧ (entries v).head? = some x ∧
    (iter = false → x.isSeq = false) ∧
    (iter = true → x.isSeq = true → (∃ l, v = .seq .ndarray l) → x.leaves.length = 1)

theorem item_scalar (x : ν) : item (.scalar x) = .ok (.scalar x) := by
  simp [item, Val.leaves]

theorem first_scalar (b : Box) (x : ν) : first b (.scalar x) = .ok (.scalar x) := by
  cases b <;> simp [first, item_scalar]

theorem item_ok_iff (v : Val ν) : (∃ w, item v = .ok w) ↔ v.leaves.length = 1 := by
  unfold item
  split
  · rename_i x h; simp [h]
  · rename_i h
    constructor
    · rintro ⟨w, h'⟩; cases h'
    · intro h1
      obtain ⟨x, hx⟩ := List.length_eq_one_iff.1 h1
      exact absurd hx (h x)

theorem preKey_ok_iff (md : String → Option Bool) (verb : ℕ) (kv : String × Val ν) :
    (∃ r, preKey md verb kv = .ok r) ↔ Accepts md kv.1 kv.2 := by
  obtain ⟨key, v⟩ := kv
  unfold preKey Accepts
  by_cases hk : engineKey key = true
  · simp only [hk, if_true]
    rcases v with x | ⟨b, l⟩
    · simp [Val.isSeq]
    · rcases hm : md key with _ | iter
      · simp [Val.isSeq]
      · rcases l with _ | ⟨x, xs⟩
        · simp [preOne, Except.map, entries, Val.isSeq]
        · rcases x with x | ⟨b', l'⟩
          · cases iter <;> simp [preOne, Val.isSeq, first_scalar, Except.map, entries]
          · cases iter
            · simp [preOne, Val.isSeq, Except.map, entries]
            · cases b
              · simp [preOne, Val.isSeq, first, Except.map, entries]
              · have hi := item_ok_iff (.seq b' l' : Val ν)
                simp only [preOne, Val.isSeq, first, entries]
                rcases hq : item (.seq b' l' : Val ν) with e | w
                · rw [hq] at hi
                  simp only [reduceCtorEq, exists_false, false_iff] at hi
                  simp [Except.map, hi]
                · rw [hq] at hi
                  simp only [Except.ok.injEq, exists_eq', true_iff] at hi
                  simp [Except.map, hi]
              · simp [preOne, Val.isSeq, first, Except.map, entries]
  · simp [hk]

theorem mapM_ok_iff {α β : Type} (f : α → Except Err β) (l : List α) :
    (∃ r, l.mapM f = .ok r) ↔ ∀ a ∈ l, ∃ b, f a = .ok b := by
  induction l with
  | nil => simp [pure, Except.pure]
  | cons a l ih =>
    rw [List.mapM_cons]
    rcases hf : f a with e | b
    · simp only [bind, Except.bind, reduceCtorEq, exists_false, List.mem_cons, forall_eq_or_imp, hf,
        false_and]
    · rcases hl : l.mapM f with e | r
      · rw [hl] at ih
        simp only [bind, Except.bind, reduceCtorEq, exists_false, List.mem_cons, forall_eq_or_imp, hf,
          Except.ok.injEq, exists_eq', true_and, ← ih]
      · rw [hl] at ih
        simp only [Except.ok.injEq, exists_eq', true_iff] at ih
        simp only [bind, Except.bind, pure, Except.pure, Except.ok.injEq, exists_eq', true_iff,
          List.mem_cons, forall_eq_or_imp, hf, true_and]
        exact ih

theorem mapM_ok_forall₂ {α β : Type} (f : α → Except Err β) (l : List α) (r : List β)
    (h : l.mapM f = .ok r) : List.Forall₂ (fun a b => f a = .ok b) l r := by
  induction l generalizing r with
  | nil => simp [pure, Except.pure] at h; subst h; exact .nil
  | cons a l ih =>
    rw [List.mapM_cons] at h
    rcases hf : f a with e | b
    · simp [hf, bind, Except.bind] at h
    · rcases hl : l.mapM f with e | r'
      · simp [hf, hl, bind, Except.bind] at h
      · simp [hf, hl, bind, Except.bind, pure, Except.pure] at h
        subst h
        exact .cons hf (ih _ hl)

/-- Which options an engine model accepts. -/
theorem preprocess_ok_iff (md : String → Option Bool) (verb : ℕ) (opts : Dict String (Val ν)) :
    (∃ r, preprocess md verb opts = .ok r) ↔ ∀ kv ∈ opts, Accepts md kv.1 kv.2 := by
  have h := mapM_ok_iff (preKey md verb) opts
  simp only [preKey_ok_iff] at h
  rw [← h]
  unfold preprocess
  rcases opts.mapM (preKey md verb) with e | r <;> simp [Except.map]

/-- What an option is replaced with. -/
def Kept (md : String → Option Bool) (verb : ℕ) (key : String) (v w : Val ν) (warn : Bool) : Prop :=
  (engineKey key = false → w = v ∧ warn = false) ∧
  (v.isSeq = false → w = v ∧ warn = false) ∧
  (engineKey key = true → v.isSeq = true → md key = some false →
    w.isSeq = false ∧ (entries v).head? = some w ∧ (warn = true ↔ verb ≥ 1 ∧ (entries v).length > 1)) ∧
  (engineKey key = true → v.isSeq = true → md key = some true →
    (∀ x, (entries v).head? = some x → x.isSeq = false → w = v ∧ warn = false) ∧
    (∀ x, (entries v).head? = some x → x.isSeq = true → warn = true ∧
      ((∃ l, v = .seq .ndarray l) → w.isSeq = false ∧ w.leaves = x.leaves) ∧
      (¬ (∃ l, v = .seq .ndarray l) → w = x)))

theorem preKey_kept (md : String → Option Bool) (verb : ℕ) (key : String) (v : Val ν)
    (r : String × Val ν × Bool) (h : preKey md verb (key, v) = .ok r) :
    r.1 = key ∧ Kept md verb key v r.2.1 r.2.2 := by
  unfold preKey at h
  by_cases hk : engineKey key = true
  · simp only [hk, if_true] at h
    rcases v with x | ⟨b, l⟩
    · simp only [Except.ok.injEq] at h
      subst h
      simp [Kept, Val.isSeq]
    · rcases hm : md key with _ | iter
      · simp [hm] at h
      · simp only [hm] at h
        rcases l with _ | ⟨x, xs⟩
        · simp [preOne, Except.map] at h
        · rcases x with x | ⟨b', l'⟩
          · cases iter
            · simp only [preOne, Val.isSeq, first_scalar, Except.map, Bool.not_false, if_true,
                Bool.false_eq_true, if_false, Except.ok.injEq] at h
              subst h
              simp only [Kept, hk, hm, Val.isSeq, entries]
              cases xs <;> simp
            · simp only [preOne, Val.isSeq, Except.map, Bool.not_true, Bool.false_eq_true, if_false,
                Except.ok.injEq] at h
              subst h
              simp [Kept, hk, hm, Val.isSeq, entries]
          · cases iter
            · simp [preOne, Val.isSeq, Except.map] at h
            · cases b
              · simp [preOne, Val.isSeq, first, Except.map] at h
                subst h
                simp [Kept, hk, hm, Val.isSeq, entries]
              · simp only [preOne, Val.isSeq, first] at h
                rcases hq : item (.seq b' l' : Val ν) with e | w
                · simp [hq, Except.map] at h
                · have hw : w.isSeq = false ∧ w.leaves = (.seq b' l' : Val ν).leaves := by
                    unfold item at hq
                    split at hq
                    · rename_i y hy
                      injection hq with hq
                      subst hq
                      exact ⟨rfl, by rw [hy]; simp [Val.leaves]⟩
                    · cases hq
                  simp [hq, Except.map] at h
                  subst h
                  have e1 : (Val.seq b' l' : Val ν).isSeq = true := rfl
                  have e2 : (Val.seq Box.ndarray (Val.seq b' l' :: xs) : Val ν).isSeq = true := rfl
                  simp [Kept, hk, hm, e1, e2, entries, hw]
              · simp [preOne, Val.isSeq, first, Except.map] at h
                subst h
                simp [Kept, hk, hm, Val.isSeq, entries]
  · simp only [hk, Bool.false_eq_true, if_false, Except.ok.injEq] at h
    subst h
    have hk' : engineKey key = false := by simpa using hk
    simp [Kept, hk']

/-- After preprocessing the options have the same names in the same order, each with the value
it was given or its first entry, and exactly the replaced ones are reported. -/
theorem preprocess_kept (md : String → Option Bool) (verb : ℕ) (opts out : Dict String (Val ν))
    (warned : List String) (h : preprocess md verb opts = .ok (out, warned)) :
    out.keys = opts.keys ∧ ∃ ws : List Bool, ws.length = opts.length ∧
      warned = ((opts.keys.zip ws).filter fun p => p.2).map Prod.fst ∧
      ∀ (i : ℕ) key v w b, opts[i]? = some (key, v) → out[i]? = some (key, w) → ws[i]? = some b →
        Kept md verb key v w b := by
  unfold preprocess at h
  rcases hl : opts.mapM (preKey md verb) with e | l
  · simp [hl, Except.map] at h
  · simp only [hl, Except.map, Except.ok.injEq, Prod.mk.injEq] at h
    obtain ⟨h1, h2⟩ := h
    subst h1 h2
    have hf := mapM_ok_forall₂ _ _ _ hl
    have hk : (l.map fun r => r.1) = opts.keys := by
      clear hl
      induction hf with
      | nil => rfl
      | cons hab _ ih =>
        rename_i a b _ _ _
        obtain ⟨k, v⟩ := a
        simp only [List.map_cons, Dict.keys]
        rw [(preKey_kept md verb k v b hab).1]
        congr 1
    refine ⟨by rw [← hk]; simp [Dict.keys, Function.comp_def], l.map fun r => r.2.2, by simp [hf.length_eq], ?_, ?_⟩
    · rw [← hk, List.zip_map', List.filter_map, List.map_map]
      rfl
    · intro i key v w b h1 h2 h3
      rw [List.getElem?_map] at h2 h3
      rcases hr : l[i]? with _ | r
      · simp [hr] at h2
      · simp only [hr, Option.map_some, Option.some.injEq, Prod.mk.injEq] at h2 h3
        have hi : i < opts.length := by
          by_contra hc
          simp [List.getElem?_eq_none (Nat.le_of_not_lt hc)] at h1
        have hi' : i < l.length := by rw [← hf.length_eq]; exact hi
        have h4 := hf.get hi hi'
        simp only [List.get_eq_getElem] at h4
        rw [List.getElem?_eq_getElem hi, Option.some.injEq] at h1
        rw [List.getElem?_eq_getElem hi', Option.some.injEq] at hr
        rw [h1, hr] at h4
        have := preKey_kept md verb key v r h4
        rw [← h2.2, ← h3]
        exact this.2

theorem isSeq_false {v : Val ν} (h : v.isSeq = false) : ∃ x, v = .scalar x := by
  rcases v with x | ⟨b, l⟩
  · exact ⟨x, rfl⟩
  · simp [Val.isSeq] at h

/-- An option that went through once goes through again unchanged, unless it was nested three deep. -/
theorem preKey_again (md : String → Option Bool) (verb : ℕ) (key : String) (v : Val ν)
    (r : String × Val ν × Bool) (h : preKey md verb (key, v) = .ok r)
    (flat : ∀ x ∈ entries v, ∀ y ∈ entries x, y.isSeq = false)
    (full : ∀ x ∈ entries v, x.isSeq = true → entries x ≠ []) :
    preKey md verb (r.1, r.2.1) = .ok (r.1, r.2.1, false) := by
  obtain ⟨h1, h2⟩ := preKey_kept md verb key v r h
  obtain ⟨k, w, b⟩ := r
  simp only at h1 h2 ⊢
  subst h1
  obtain ⟨q1, q2, q3, q4⟩ := h2
  by_cases hk : engineKey k = true
  · by_cases hw : w.isSeq = true
    · have hv : v.isSeq = true := by
        by_contra hc
        have := (q2 (by simpa using hc)).1
        rw [this] at hw
        exact hc hw
      rcases hm : md k with _ | iter
      · exfalso
        have := (preKey_ok_iff md verb (k, v)).1 ⟨_, h⟩ hk hv
        obtain ⟨iter, _, h3, _⟩ := this
        simp [hm] at h3
      · cases iter
        · have := (q3 hk hv hm).1
          simp [this] at hw
        · have := (preKey_ok_iff md verb (k, v)).1 ⟨_, h⟩ hk hv
          obtain ⟨_, x, _, hx, _, _⟩ := this
          obtain ⟨p1, p2⟩ := q4 hk hv hm
          have hmem : x ∈ entries v := by
            rcases hv' : entries v with _ | ⟨y, ys⟩
            · simp only [hv', List.head?_nil, reduceCtorEq] at hx
            · simp only [hv', List.head?_cons, Option.some.injEq] at hx
              simp [hx]
          by_cases hxs : x.isSeq = true
          · by_cases hnd : ∃ l, v = .seq .ndarray l
            · have := ((p2 x hx hxs).2.1 hnd).1
              simp [this] at hw
            · have hwx := (p2 x hx hxs).2.2 hnd
              subst hwx
              rcases w with _ | ⟨b', l⟩
              · simp [Val.isSeq] at hw
              · rcases l with _ | ⟨y, ys⟩
                · exact absurd rfl (full _ hmem rfl)
                · have := flat _ hmem y (by simp [entries])
                  simp [preKey, hk, hm, preOne, this, Except.map]
          · have hwv := (p1 x hx (by simpa using hxs)).1
            subst hwv
            rcases w with _ | ⟨b', l⟩
            · simp [Val.isSeq] at hw
            · rcases l with _ | ⟨y, ys⟩
              · simp [entries] at hx
              · simp only [entries, List.head?_cons, Option.some.injEq] at hx
                subst hx
                simp [preKey, hk, hm, preOne, hxs, Except.map]
    · obtain ⟨x, hx⟩ := isSeq_false (by simpa using hw)
      subst hx
      simp [preKey, hk]
  · simp [preKey, hk]

/-- Preprocessing twice is preprocessing once. -/
theorem preprocess_again (md : String → Option Bool) (verb : ℕ) (opts out : Dict String (Val ν))
    (warned : List String) (h : preprocess md verb opts = .ok (out, warned))
    (flat : ∀ kv ∈ opts, ∀ x ∈ entries kv.2, ∀ y ∈ entries x, y.isSeq = false)
    (full : ∀ kv ∈ opts, ∀ x ∈ entries kv.2, x.isSeq = true → entries x ≠ []) :
    preprocess md verb out = .ok (out, []) := by
  unfold preprocess at h
  rcases hl : opts.mapM (preKey md verb) with e | l
  · simp [hl, Except.map] at h
  · simp only [hl, Except.map, Except.ok.injEq, Prod.mk.injEq] at h
    obtain ⟨h1, -⟩ := h
    subst h1
    have hf := mapM_ok_forall₂ _ _ _ hl
    have key : (l.map fun r => (r.1, r.2.1)).mapM (preKey md verb)
        = .ok (l.map fun r => (r.1, r.2.1, false)) := by
      clear hl
      induction hf with
      | nil => rfl
      | cons hab _ ih =>
        rename_i a b as bs _
        obtain ⟨k, v⟩ := a
        have h3 := preKey_again md verb k v b hab
          (flat (k, v) (List.mem_cons_self ..)) (full (k, v) (List.mem_cons_self ..))
        have h4 := ih (fun kv hkv => flat kv (List.mem_cons_of_mem _ hkv))
          (fun kv hkv => full kv (List.mem_cons_of_mem _ hkv))
        rw [List.map_cons, List.mapM_cons, h3, h4]
        rfl
    unfold preprocess
    rw [key]
    simp [Except.map, Function.comp_def, List.filter_map]

/-- A nested vector for a vector variable is documented to be replaced with its first entry, but a
matrix given as an array is refused. -/
theorem matrix_violated :
    ∃ (md : String → Option Bool) (opts : Dict String (Val ℤ)),
      (∀ kv ∈ opts, md kv.1 = some true) ∧ preprocess md 1 opts = .error .valueError := by
  refine ⟨fun _ => some true, [("aircraft:engine:wing_locations",
    .seq .ndarray [.seq .ndarray [.scalar 1, .scalar 2], .seq .ndarray [.scalar 3, .scalar 4]])], by simp, ?_⟩
  have hk : engineKey "aircraft:engine:wing_locations" = true := by decide
  simp [preprocess, preKey, hk, preOne, Val.isSeq, first, item, Val.leaves, leavesL, Except.map, bind,
    Except.bind]

/-- The same matrix as a list gives its first row, and three levels are stripped one at a time, so the
second round changes the result. -/
theorem again_violated :
    ∃ (md : String → Option Bool) (opts out out' : Dict String (Val ℤ)) (w w' : List String),
      preprocess md 1 opts = .ok (out, w) ∧ preprocess md 1 out = .ok (out', w') ∧ w' ≠ [] := by
  have hk : engineKey "aircraft:engine:wing_locations" = true := by decide
  refine ⟨fun _ => some true, [("aircraft:engine:wing_locations",
    .seq .list [.seq .list [.seq .list [.scalar 1, .scalar 2]]])], [("aircraft:engine:wing_locations",
    .seq .list [.seq .list [.scalar 1, .scalar 2]])], [("aircraft:engine:wing_locations",
    .seq .list [.scalar 1, .scalar 2])], ["aircraft:engine:wing_locations"],
    ["aircraft:engine:wing_locations"], ?_, ?_, by simp⟩ <;>
  simp [preprocess, preKey, hk, preOne, Val.isSeq, first, Except.map, bind, Except.bind, pure, Except.pure]

example : ∃ out : Dict String (Val ℤ), preprocess (fun k => some (k == "aircraft:engine:wing_locations")) 1
    [("aircraft:engine:scale_factor", .seq .ndarray [.scalar 1, .scalar 2]),
     ("aircraft:engine:wing_locations", .seq .ndarray [.scalar 3, .scalar 4]),
     ("aircraft:wing:area", .seq .list [.scalar 5, .scalar 6])] =
    .ok (out, ["aircraft:engine:scale_factor"]) := by
  have h1 : engineKey "aircraft:engine:scale_factor" = true := by decide
  have h2 : engineKey "aircraft:engine:wing_locations" = true := by decide
  have h3 : engineKey "aircraft:wing:area" = false := by decide
  refine ⟨[("aircraft:engine:scale_factor", .scalar 1),
     ("aircraft:engine:wing_locations", .seq .ndarray [.scalar 3, .scalar 4]),
     ("aircraft:wing:area", .seq .list [.scalar 5, .scalar 6])], ?_⟩
  simp [preprocess, preKey, h1, h2, h3, preOne, Val.isSeq, first, item, Val.leaves, Except.map, bind,
    Except.bind, pure, Except.pure]

/-- The variables looked at are those whose names begin with one of the two prefixes. -/
theorem engineKey_iff (key : String) : engineKey key = true ↔
    "aircraft:engine:".toList <+: key.toList ∨ "aircraft:nacelle".toList <+: key.toList := by
  simp [engineKey, List.isPrefixOf_iff_prefix]

/-- The documented `TypeError` for options of another type is never raised. -/
theorem type_check_violated : (∀ k, enter k ≠ .error .typeError) ∧ enter .noMethods = .error .attributeError := by
  refine ⟨?_, rfl⟩
  intro k; cases k <;> simp [enter]

/-! ### Combining the engines -/

section
variable {κ α : Type} [DecidableEq κ]

theorem update_get? (d e : Dict κ α) (he : e.keys.Nodup) (k : κ) :
    (update d e).get? k = (e.get? k).or (d.get? k) := by
  unfold update
  induction e generalizing d with
  | nil => simp
  | cons p e ih =>
    obtain ⟨a, v⟩ := p
    simp only [Dict.keys, List.map_cons, List.nodup_cons] at he
    rw [List.foldl_cons, ih _ he.2, Dict.get?_set]
    by_cases h : a = k
    · subst h
      have : Dict.get? e a = none := (Dict.get?_eq_none_iff e a).2 he.1
      simp [Dict.get?, this]
    · simp [Dict.get?, h]

theorem update_keys (d e : Dict κ α) (k : κ) : k ∈ (update d e).keys ↔ k ∈ d.keys ∨ k ∈ e.keys := by
  unfold update
  induction e generalizing d with
  | nil => simp [Dict.keys]
  | cons p e ih =>
    rw [List.foldl_cons, ih, ← Dict.get?_isSome_iff, ← Dict.get?_isSome_iff (d := d), Dict.get?_set]
    by_cases h : p.1 = k
    · simp [h, Dict.keys]
    · simp only [h, if_false, Dict.keys, List.map_cons, List.mem_cons]
      constructor
      · rintro (h1 | h1)
        · exact .inl h1
        · exact .inr (.inr h1)
      · rintro (h1 | h1 | h1)
        · exact .inl h1
        · exact absurd h1.symm h
        · exact .inr h1

theorem update_nodup (d e : Dict κ α) (hd : d.keys.Nodup) : (update d e).keys.Nodup := by
  unfold update
  induction e generalizing d with
  | nil => exact hd
  | cons p e ih => exact ih _ (Dict.nodup_set d p.1 p.2 hd)

theorem foldl_update_get? (ds : List (Dict κ α)) (d : Dict κ α) (h : ∀ e ∈ ds, e.keys.Nodup) (k : κ) :
    (ds.foldl update d).get? k = (ds.reverse.findSome? fun e => e.get? k).or (d.get? k) := by
  induction ds generalizing d with
  | nil => simp
  | cons e ds ih =>
    rw [List.foldl_cons, ih _ (fun x hx => h x (List.mem_cons_of_mem _ hx)),
      update_get? d e (h e (List.mem_cons_self ..)) k, List.reverse_cons, List.findSome?_append]
    cases ds.reverse.findSome? fun e => e.get? k <;> simp [List.findSome?]
    cases Dict.get? e k <;> simp

/-- The combined dictionary has, for each name, what the last engine with that name says. -/
theorem combine_get? (engines : List (Dict κ α)) (h : ∀ e ∈ engines, e.keys.Nodup) (k : κ) :
    (combine engines).get? k = engines.reverse.findSome? fun e => e.get? k := by
  rw [combine, foldl_update_get? _ _ h]; simp

/-- The combined dictionary has the names of all engines, each once. -/
theorem combine_keys (engines : List (Dict κ α)) :
    (combine engines).keys.Nodup ∧ ∀ k, k ∈ (combine engines).keys ↔ ∃ e ∈ engines, k ∈ e.keys := by
  unfold combine
  have h : ∀ (ds : List (Dict κ α)) (d : Dict κ α), d.keys.Nodup →
      (ds.foldl update d).keys.Nodup ∧
      ∀ k, k ∈ (ds.foldl update d).keys ↔ k ∈ d.keys ∨ ∃ e ∈ ds, k ∈ e.keys := by
    intro ds
    induction ds with
    | nil => intro d hd; simp [hd]
    | cons e ds ih =>
      intro d hd
      obtain ⟨h1, h2⟩ := ih _ (update_nodup d e hd)
      refine ⟨h1, fun k => ?_⟩
      rw [List.foldl_cons, h2 k, update_keys]
      simp [or_assoc]
  obtain ⟨h1, h2⟩ := h engines [] (by simp [Dict.keys])
  refine ⟨h1, fun k => ?_⟩
  rw [h2 k]; simp [Dict.keys]

end

/-- Engines that agree on the names they share lose nothing in the combination. -/
theorem combine_agrees {κ α : Type} [DecidableEq κ] (engines : List (Dict κ α))
    (h : ∀ e ∈ engines, e.keys.Nodup)
    (agree : ∀ e ∈ engines, ∀ e' ∈ engines, ∀ k v v', e.get? k = some v → e'.get? k = some v' → v = v')
    (e : Dict κ α) (he : e ∈ engines) (k : κ) (v : α) (hv : e.get? k = some v) :
    (combine engines).get? k = some v := by
  rw [combine_get? _ h]
  rcases hr : engines.reverse.findSome? fun e => e.get? k with _ | w
  · rw [List.findSome?_eq_none_iff] at hr
    have := hr e (by simpa using he)
    simp [hv] at this
  · obtain ⟨e', he', hw⟩ := List.exists_of_findSome?_eq_some hr
    rw [agree e he e' (by simpa using he') k v w hv hw, ← hr]

theorem needsSolver_iff (engines : List Bool) : needsSolver engines = true ↔ true ∈ engines := by
  have : ∀ (l : List Bool) (a : Bool), l.foldl (fun acc b => acc || b) a = true ↔ a = true ∨ true ∈ l := by
    intro l
    induction l with
    | nil => simp
    | cons b l ih => intro a; rw [List.foldl_cons, ih]; cases a <;> cases b <;> simp
  simp [needsSolver, this]

theorem updateNames_ok_iff (names : List String) (d : Dict Char Char) :
    (∃ r, updateNames d names = .ok r) ↔ ∀ s ∈ names, s.toList.length = 2 := by
  induction names generalizing d with
  | nil => simp [updateNames]
  | cons s r ih =>
    rcases hs : s.toList with _ | ⟨a, _ | ⟨b, _ | ⟨c, t⟩⟩⟩
    · simp [updateNames, hs]
    · simp [updateNames, hs]
    · simp only [updateNames, hs, ih, List.mem_cons, forall_eq_or_imp, List.length_cons, List.length_nil,
        true_and]
    · simp [updateNames, hs]

theorem foldlM_ok_iff (engines : List (List String)) (d : Dict Char Char) :
    (∃ r, engines.foldlM updateNames d = .ok r) ↔ ∀ e ∈ engines, ∀ s ∈ e, s.toList.length = 2 := by
  induction engines generalizing d with
  | nil => simp [List.foldlM, pure, Except.pure]
  | cons e es ih =>
    rw [List.foldlM_cons]
    have h1 := updateNames_ok_iff e d
    rcases hq : updateNames d e with x | x
    · rw [hq] at h1
      simp only [reduceCtorEq, exists_false, false_iff] at h1
      simp only [bind, Except.bind, reduceCtorEq, exists_false, List.mem_cons, forall_eq_or_imp, h1,
        false_and]
    · rw [hq] at h1
      simp only [Except.ok.injEq, exists_eq', true_iff] at h1
      simp only [bind, Except.bind, List.mem_cons, forall_eq_or_imp]
      rw [ih x]
      exact ⟨fun h => ⟨h1, h⟩, fun h => h.2⟩

/-- Linked variables and mass names can be collected only when every name has two characters. -/
theorem collectNames_ok_iff (engines : List (List String)) :
    (∃ r, collectNames engines = .ok r) ↔ ∀ e ∈ engines, ∀ s ∈ e, s.toList.length = 2 :=
  foldlM_ok_iff engines []

/-- Without names the collection is empty. -/
theorem collectNames_partial (engines : List (List String)) (h : ∀ e ∈ engines, e = []) :
    collectNames engines = .ok [] := by
  unfold collectNames
  induction engines with
  | nil => rfl
  | cons e es ih =>
    rw [List.foldlM_cons, h e (List.mem_cons_self ..)]
    exact ih fun x hx => h x (List.mem_cons_of_mem _ hx)

/-- One engine with one mass name makes the collection fail. -/
theorem collectNames_violated : ∃ engines : List (List String), engines = [["aircraft:motor:mass"]] ∧
    ¬ ∃ r, collectNames engines = .ok r := by
  refine ⟨_, rfl, ?_⟩
  rw [collectNames_ok_iff]
  decide

/-- The time series are kept per engine, none is lost. -/
theorem timeseries_spec (engines : List (List String)) :
    timeseries engines = engines ∧ ∀ s, s ∈ (timeseries engines).flatten ↔ ∃ e ∈ engines, s ∈ e := by
  have h : ∀ (l acc : List (List String)), l.foldl (fun acc o => acc ++ [o]) acc = acc ++ l := by
    intro l
    induction l with
    | nil => simp
    | cons e l ih => intro acc; rw [List.foldl_cons, ih]; simp
  have h2 : timeseries engines = engines := by rw [timeseries, h]; rfl
  refine ⟨h2, fun s => ?_⟩
  rw [h2]; simp

theorem prefix_inj (name a b : String) (h : name ++ "." ++ a = name ++ "." ++ b) : a = b := by
  have := congrArg String.toList h
  simp only [String.toList_append, List.append_assoc] at this
  exact String.toList_inj.1 (List.append_cancel_left (List.append_cancel_left this))

theorem busFold_get? {α : Type} (name : String) (l acc : Dict String α) (hl : l.keys.Nodup) (k : String) :
    Dict.get? (l.foldl (fun acc p => Dict.set acc (name ++ "." ++ p.1) p.2) acc) (name ++ "." ++ k)
      = (l.get? k).or (acc.get? (name ++ "." ++ k)) := by
  induction l generalizing acc with
  | nil => simp
  | cons p l ih =>
    obtain ⟨a, v⟩ := p
    simp only [Dict.keys, List.map_cons, List.nodup_cons] at hl
    rw [List.foldl_cons, ih _ hl.2, Dict.get?_set]
    by_cases h : a = k
    · subst h
      have : Dict.get? l a = none := (Dict.get?_eq_none_iff l a).2 hl.1
      simp [Dict.get?, this]
    · have : ¬ name ++ "." ++ a = name ++ "." ++ k := fun hc => h (prefix_inj _ _ _ hc)
      simp [Dict.get?, h, this]

theorem busFold_keys {α : Type} (name : String) (l acc : Dict String α) (k : String)
    (h : k ∈ (l.foldl (fun acc p => Dict.set acc (name ++ "." ++ p.1) p.2) acc).keys) :
    k ∈ acc.keys ∨ ∃ v ∈ l.keys, k = name ++ "." ++ v := by
  induction l generalizing acc with
  | nil => exact .inl h
  | cons p l ih =>
    rw [List.foldl_cons] at h
    rcases ih _ h with h1 | ⟨v, hv, hk⟩
    · rw [← Dict.get?_isSome_iff, Dict.get?_set] at h1
      by_cases hc : name ++ "." ++ p.1 = k
      · exact .inr ⟨p.1, by simp [Dict.keys], hc.symm⟩
      · rw [if_neg hc, Dict.get?_isSome_iff] at h1
        exact .inl h1
    · exact .inr ⟨v, by simp [Dict.keys] at hv ⊢; exact .inr hv, hk⟩

/-- Bus variables carry the name of the propulsion group; under that name each has what the
last engine with it says, and there are no others. -/
theorem busVariables_spec {α : Type} (name : String) (engines : List (Dict String α))
    (h : ∀ e ∈ engines, e.keys.Nodup) :
    (∀ k, (busVariables name engines).get? (name ++ "." ++ k) = engines.reverse.findSome? fun e => e.get? k) ∧
    ∀ k ∈ (busVariables name engines).keys, ∃ e ∈ engines, ∃ v ∈ e.keys, k = name ++ "." ++ v := by
  refine ⟨fun k => ?_, fun k hk => ?_⟩
  · rw [busVariables, busFold_get? _ _ _ (combine_keys engines).1, combine_get? _ h]; simp
  · rcases busFold_keys name _ _ k hk with h1 | ⟨v, hv, h1⟩
    · simp [Dict.keys] at h1
    · obtain ⟨e, he, hv⟩ := ((combine_keys engines).2 v).1 hv
      exact ⟨e, he, v, hv, h1⟩

theorem get?_map {κ α β : Type} [DecidableEq κ] (f : κ → α → β) (d : Dict κ α) (k : κ) :
    Dict.get? (d.map fun p => (p.1, f p.1 p.2)) k = (d.get? k).map (f k) := by
  induction d with
  | nil => rfl
  | cons p d ih =>
    obtain ⟨a, v⟩ := p
    by_cases h : a = k
    · subst h; simp [Dict.get?]
    · simp [Dict.get?, h, ih]

/-- Parameters of engines get one entry per engine type and are static, the others stay as their
engine describes them. -/
theorem parameters_spec (isEngineVar : String → Bool) (numTypes : ℕ)
    (engines : List (Dict String (Param ν))) (h : ∀ e ∈ engines, e.keys.Nodup) (k : String) :
    (parameters isEngineVar numTypes engines).get? k =
      (engines.reverse.findSome? fun e => e.get? k).map fun p =>
        if isEngineVar k then ⟨p.val, some numTypes, some true⟩ else p := by
  rw [parameters, get?_map (fun a (p : Param ν) =>
    if isEngineVar a then { p with shape := some numTypes, static := some true } else p), combine_get? _ h]

example : (parameters (fun k => k == "a") 3
    [[("a", ⟨(1 : ℤ), none, none⟩), ("b", ⟨2, none, none⟩)], [("a", ⟨5, none, none⟩)]]) =
    [("a", ⟨5, some 3, some true⟩), ("b", ⟨2, none, none⟩)] := by decide

/-! ### Before the mission -/

/-- An engine with the output gives its entry; for an engine without it the entry stays what it was;
a second pass changes nothing. -/
theorem mux_spec {κ : Type} [DecidableEq κ] (engines : List (Dict κ ν)) (v : κ) (held : ℕ → ν) (i : ℕ)
    (hi : i < engines.length) :
    (∀ x, engines[i].get? v = some x → muxPass engines v held i = x) ∧
    (v ∉ engines[i].keys → muxPass engines v held i = held i) ∧
    muxPass engines v (muxPass engines v held) i = muxPass engines v held i := by
  refine ⟨fun x hx => by simp [muxPass, hi, hx], fun hx => ?_, ?_⟩
  · have := (Dict.get?_eq_none_iff engines[i] v).2 hx
    simp [muxPass, hi, this]
  · unfold muxPass
    split <;> simp_all

/-- The muxed vector is determined by the engines exactly when all of them have the output. -/
theorem mux_determined_iff {κ : Type} [DecidableEq κ] (engines : List (Dict κ ℤ)) (v : κ) :
    (∀ h h' : ℕ → ℤ, ∀ i < engines.length, muxPass engines v h i = muxPass engines v h' i) ↔
      ∀ e ∈ engines, v ∈ e.keys := by
  constructor
  · intro h e he
    obtain ⟨i, hi, rfl⟩ := List.getElem_of_mem he
    by_contra hc
    have h1 := h (fun _ => 0) (fun _ => 1) i hi
    rw [(mux_spec engines v _ i hi).2.1 hc, (mux_spec engines v _ i hi).2.1 hc] at h1
    exact absurd h1 (by decide)
  · intro h f g i hi
    have := h _ (List.getElem_mem hi)
    rw [← Dict.get?_isSome_iff] at this
    obtain ⟨x, hx⟩ := Option.isSome_iff_exists.1 this
    rw [(mux_spec engines v f i hi).1 x hx, (mux_spec engines v g i hi).1 x hx]

/-- Up to two engine types can be muxed before the mission. -/
theorem muxConnect_partial (numTypes : ℕ) (any : Bool) (h : numTypes ≤ 2) : muxConnect numTypes any = .ok () := by
  unfold muxConnect
  rw [if_neg]
  omega

/-- More than two engine types with an output fail. -/
theorem muxConnect_violated (numTypes : ℕ) (h : numTypes ≥ 3) : muxConnect numTypes true = .error .nameError := by
  unfold muxConnect
  rw [if_pos]
  exact ⟨by omega, rfl, by omega⟩

/-- With several engine types each gets its own entry of the variables of engines and nacelles. -/
theorem preMissionInput_spec (numTypes i : ℕ) (x : List ν) (hx : x.length = numTypes) (hi : i < numTypes) :
    preMissionInput true numTypes i x = [x[i]] ∧ preMissionInput false numTypes i x = x := by
  constructor
  · unfold preMissionInput
    by_cases h : numTypes > 1
    · simp [h, hx, hi]
    · have h1 : numTypes = 1 := by omega
      have h0 : i = 0 := by omega
      subst h0
      obtain ⟨a, rfl⟩ := List.length_eq_one_iff.1 (hx.trans h1)
      simp [h]
  · simp [preMissionInput]

theorem vectorizedKey_iff (key : String) : vectorizedKey key = true ↔
    "engine:".toList <:+: key.toList ∨ "nacelle:".toList <:+: key.toList := by
  unfold vectorizedKey
  rw [List.any_cons, List.any_cons, List.any_nil, Bool.or_false, Bool.or_eq_true, decide_eq_true_iff,
    decide_eq_true_iff]

/-! ### Mission -/

/-- Every output an engine may be connected with is a variable of the mux and the other way round. -/
theorem supported_perm : supported.Perm muxVars ∧ supported.Nodup := by
  constructor <;> decide

theorem get?_filter {κ α : Type} [DecidableEq κ] (f : κ → Bool) (d : Dict κ α) (k : κ) :
    Dict.get? (d.filter fun p => f p.1) k = if f k then d.get? k else none := by
  induction d with
  | nil => simp
  | cons p d ih =>
    obtain ⟨a, v⟩ := p
    by_cases hf : f a = true
    · rw [List.filter_cons_of_pos (by simpa using hf)]
      by_cases h : a = k
      · subst h; simp [Dict.get?, hf]
      · simp [Dict.get?, h, ih]
    · rw [List.filter_cons_of_neg (by simpa using hf), ih]
      by_cases h : a = k
      · subst h; simp [hf]
      · simp [Dict.get?, h]

/-- The maximum counterparts of the outputs of the copy at full throttle. -/
theorem maxPart_get? (d : Dict Var ν) (hd : d.keys.Nodup) :
    Dict.keys (d.filterMap fun p => (maxOf p.1).map fun v => (v, p.2)) |>.Nodup := by
  unfold Dict.keys
  induction d with
  | nil => simp
  | cons p d ih =>
    obtain ⟨a, v⟩ := p
    simp only [Dict.keys, List.map_cons, List.nodup_cons] at hd
    have := ih hd.2
    rw [List.filterMap_cons]
    rcases hm : maxOf a with _ | b
    · simpa [hm] using this
    · simp only [Option.map_some, List.map_cons, List.nodup_cons]
      refine ⟨?_, this⟩
      intro hc
      simp only [List.mem_map, List.mem_filterMap] at hc
      obtain ⟨⟨b', w⟩, ⟨⟨a', w'⟩, hmem, heq⟩, hb⟩ := hc
      simp only at hb heq
      subst hb
      rcases hm' : maxOf a' with _ | c
      · simp [hm'] at heq
      · simp only [hm', Option.map_some, Option.some.injEq, Prod.mk.injEq] at heq
        have hca : c = b' := heq.1
        subst hca
        have : a' = a := by
          cases a' <;> cases a <;> simp_all [maxOf] <;> (rw [← hm'] at hm; simp at hm)
        subst this
        exact hd.1 (List.mem_map.2 ⟨_, hmem, rfl⟩)

theorem maxPart_value (d : Dict Var ν) (v : Var) :
    Dict.get? (d.filterMap fun p => (maxOf p.1).map fun v => (v, p.2)) v =
      match v with
      | .thrustMax => d.get? .thrust
      | .shaftPowerMax => d.get? .shaftPower
      | _ => none := by
  induction d with
  | nil => cases v <;> rfl
  | cons p d ih =>
    obtain ⟨a, w⟩ := p
    rw [List.filterMap_cons]
    have e1 : maxOf .thrust = some .thrustMax := rfl
    have e2 : maxOf .shaftPower = some .shaftPowerMax := rfl
    rcases ha : maxOf a with _ | b
    · simp only [ha, Option.map_none, ih]
      have h1 : a ≠ .thrust := by rintro rfl; simp [e1] at ha
      have h2 : a ≠ .shaftPower := by rintro rfl; simp [e2] at ha
      cases v <;> simp [Dict.get?, h1, h2]
    · simp only [ha, Option.map_some]
      cases a <;> simp only [maxOf, Option.some.injEq, reduceCtorEq] at ha <;> subst ha <;>
        cases v <;> simp only [Dict.get?, reduceCtorEq, if_false, if_true, ih]

/-- An engine without maximum values offers its outputs, and as maximum thrust and power the
thrust and power of the same engine at full throttle, whatever it says itself. -/
theorem offered_spec (one : ν) (e : Engine ν) (u : EngIn ν) (hmax : e.computesMax = false)
    (nd : ∀ u, (e.outputs u).keys.Nodup) (v : Var) :
    (offered one e u).get? v =
      match v with
      | .thrustMax => (e.outputs (maxIn one e u)).get? .thrust
      | .shaftPowerMax => (e.outputs (maxIn one e u)).get? .shaftPower
      | v => (e.outputs u).get? v := by
  unfold offered
  simp only [hmax, Bool.false_eq_true, if_false]
  rw [update_get? _ _ (maxPart_get? _ (nd _)), maxPart_value,
    get?_filter (fun k => !([Var.thrustMax, Var.shaftPowerMax].contains k))]
  cases v <;> simp

/-- An engine that computes maximum values offers just its outputs. -/
theorem offered_own (one : ν) (e : Engine ν) (u : EngIn ν) (hmax : e.computesMax = true) :
    offered one e u = e.outputs u := by simp [offered, hmax]

/-- The copy for maximum values differs in the throttles only. -/
theorem maxIn_spec (one : ν) (e : Engine ν) (u : EngIn ν) :
    (maxIn one e u).throttle = one ∧ (e.useHybrid = true → (maxIn one e u).hybrid = one) ∧
    (e.useHybrid = false → (maxIn one e u).hybrid = u.hybrid) ∧ (maxIn one e u).param = u.param := by
  refine ⟨rfl, ?_, ?_, rfl⟩ <;> intro h <;> simp [maxIn, h]

theorem set_new {κ α : Type} [DecidableEq κ] (d : Dict κ α) (k : κ) (v : α) (h : k ∉ d.keys) :
    Dict.set d k v = d ++ [(k, v)] := by
  induction d with
  | nil => rfl
  | cons p d ih =>
    obtain ⟨a, w⟩ := p
    simp only [Dict.keys, List.map_cons, List.mem_cons, not_or] at h
    simp only [Dict.set, if_neg (Ne.symm h.1), List.cons_append]
    rw [ih h.2]

theorem foldl_set_new {β κ α : Type} [DecidableEq κ] (f : β → κ) (g : β → α) (l : List β) (d : Dict κ α)
    (h : (d.keys ++ l.map f).Nodup) :
    l.foldl (fun d b => Dict.set d (f b) (g b)) d = d ++ l.map fun b => (f b, g b) := by
  induction l generalizing d with
  | nil => simp
  | cons b l ih =>
    have hb : f b ∉ d.keys := by
      intro hc
      rw [List.nodup_append] at h
      exact h.2.2 _ hc _ (by simp) rfl
    rw [List.foldl_cons, set_new _ _ _ hb, ih]
    · simp
    · simp only [Dict.keys, List.map_append, List.map_cons, List.map_nil, List.append_assoc,
        List.cons_append, List.nil_append]
      exact h

/-- With distinct names the dictionary of outputs has the engines in order. -/
theorem outputDict_eq (one : ν) (engines : List (Engine ν)) (x : MissionIn ν)
    (names : (engines.map fun e => e.name).Nodup) :
    outputDict one engines x = engines.zipIdx.map fun ei =>
      (ei.1.name, offered one ei.1 (engineIn engines x ei.1 ei.2)) := by
  unfold outputDict
  rw [foldl_set_new (fun ei : Engine ν × ℕ => ei.1.name)
    (fun ei => offered one ei.1 (engineIn engines x ei.1 ei.2))]
  · simp
  · have : engines.zipIdx.map (fun ei => ei.1.name) = engines.map fun e => e.name := by
      conv_rhs => rw [← List.zipIdx_map_fst 0 engines, List.map_map]
      rfl
    rw [this]
    simpa [Dict.keys] using names

theorem find?_flatMap_eq {α β : Type} (p : β → Bool) (f : α → List β) (l : List α) :
    (l.flatMap f).find? p = l.findSome? fun a => (f a).find? p := by
  induction l with
  | nil => rfl
  | cons a l ih =>
    rw [List.flatMap_cons, List.find?_append, ih, List.findSome?_cons]
    cases (f a).find? p <;> simp

theorem find?_var (d : Dict Var ν) (v : Var) (i : ℕ) :
    ((d.filter fun p => supported.contains p.1).map fun p => (i, p.1, p.2)).find?
        (fun c => decide (c.1 = i ∧ c.2.1 = v)) =
      if supported.contains v then (d.get? v).map fun x => (i, v, x) else none := by
  induction d with
  | nil => simp
  | cons p d ih =>
    obtain ⟨a, w⟩ := p
    by_cases ha : supported.contains a = true
    · rw [List.filter_cons_of_pos (by simpa using ha), List.map_cons]
      by_cases h : a = v
      · subst h
        simp only [List.find?_cons, Dict.get?, if_true]
        simp only [ha, if_true, decide_true, Option.map_some, and_self]
      · rw [List.find?_cons_of_neg (by simp [h]), ih]
        simp [Dict.get?, h]
    · rw [List.filter_cons_of_neg (by simpa using ha), ih]
      by_cases h : a = v
      · subst h; simp only [ha, Bool.false_eq_true, if_false]
      · simp [Dict.get?, h]

theorem find?_other (d : Dict Var ν) (v : Var) (i j : ℕ) (hj : j ≠ i) :
    ((d.filter fun p => supported.contains p.1).map fun p => (j, p.1, p.2)).find?
        (fun c => decide (c.1 = i ∧ c.2.1 = v)) = none := by
  rw [List.find?_eq_none]
  intro c hc
  simp only [List.mem_map] at hc
  obtain ⟨p, _, rfl⟩ := hc
  simp [hj]

theorem findSome?_zipIdx {α β : Type} (f : α × ℕ → Option β) (l : List α) (s i : ℕ)
    (h : ∀ a j, j ≠ i → f (a, j) = none) :
    (l.zipIdx s).findSome? f = if s ≤ i then (l[i - s]?).bind fun a => f (a, i) else none := by
  induction l generalizing s with
  | nil => simp
  | cons a l ih =>
    rw [List.zipIdx_cons, List.findSome?_cons]
    by_cases hs : s = i
    · subst hs
      rw [if_pos (le_refl s), Nat.sub_self]
      simp only [List.getElem?_cons_zero, Option.bind_some]
      rcases f (a, s) with _ | b
      · rw [ih]; simp
      · rfl
    · rw [h a s hs, ih]
      by_cases hle : s ≤ i
      · have h1 : s + 1 ≤ i := by omega
        have h2 : i - s = (i - (s + 1)) + 1 := by omega
        rw [if_pos h1, if_pos hle, h2, List.getElem?_cons_succ]
      · rw [if_neg (by omega), if_neg hle]

/-- Entry `i` of a muxed variable is what engine `i` offers for it, and zero if it does not. -/
theorem muxed_spec (zero one : ν) (engines : List (Engine ν)) (x : MissionIn ν)
    (names : (engines.map fun e => e.name).Nodup) (v : Var) (hv : v ∈ muxVars) (i : ℕ)
    (hi : i < engines.length) :
    muxed zero one engines x v i =
      ((offered one engines[i] (engineIn engines x engines[i] i)).get? v).getD zero := by
  have hs : supported.contains v = true := by
    rw [List.contains_iff_mem]; exact supported_perm.1.mem_iff.2 hv
  unfold muxed connections
  rw [outputDict_eq one engines x names, find?_flatMap_eq, findSome?_zipIdx _ _ 0 i]
  · simp only [Nat.zero_le, if_true, Nat.sub_zero, List.getElem?_map, List.getElem?_zipIdx, hi,
      List.getElem?_eq_getElem, Option.map_some, Option.bind_some, Nat.zero_add]
    rw [find?_var, if_pos hs]
    cases Dict.get? (offered one engines[i] (engineIn engines x engines[i] i)) v <;> rfl
  · intro a j hj
    exact find?_other _ v i j hj

/-- With several engine types, entry `i` depends on the throttles and parameters of entry `i` only. -/
theorem muxed_own_inputs (zero one : ν) (engines : List (Engine ν)) (x y : MissionIn ν)
    (names : (engines.map fun e => e.name).Nodup) (v : Var) (hv : v ∈ muxVars) (i : ℕ)
    (hi : i < engines.length) (h1 : x.throttle i = y.throttle i) (h2 : x.hybrid i = y.hybrid i)
    (h3 : ∀ p ∈ engines[i].params, x.param p i = y.param p i) :
    muxed zero one engines x v i = muxed zero one engines y v i := by
  rw [muxed_spec _ _ _ _ names v hv i hi, muxed_spec _ _ _ _ names v hv i hi]
  have : engineIn engines x engines[i] i = engineIn engines y engines[i] i := by
    unfold engineIn
    by_cases hl : engines.length > 1
    · simp only [hl, if_true, h1, h2, EngIn.mk.injEq, true_and]
      funext p
      by_cases hp : engines[i].params.contains p = true
      · simp only [hp, if_true, passthrough, h3 p (by simpa using hp)]
      · simp only [hp, Bool.false_eq_true, if_false]
    · have h0 : i = 0 := by omega
      subst h0
      simp only [hl, if_false, h1, h2, EngIn.mk.injEq, true_and]
      funext p
      by_cases hp : engines[0].params.contains p = true
      · simp only [hp, if_true, h3 p (by simpa using hp)]
      · simp only [hp, Bool.false_eq_true, if_false]
  rw [this]

/-- Every engine sees its own throttles and, for the parameters it asks for, its own entry. -/
theorem engineIn_spec (engines : List (Engine ν)) (x : MissionIn ν) (i : ℕ) (hi : i < engines.length) :
    (engineIn engines x engines[i] i).throttle = x.throttle i ∧
    (engineIn engines x engines[i] i).hybrid = x.hybrid i ∧
    ∀ p, (engineIn engines x engines[i] i).param p =
      if p ∈ engines[i].params then some (x.param p i) else none := by
  unfold engineIn
  by_cases hl : engines.length > 1
  · simp only [hl, if_true, true_and]
    intro p
    by_cases hp : p ∈ engines[i].params
    · have : (engines.any fun e => e.params.contains p) = true :=
        List.any_eq_true.2 ⟨engines[i], List.getElem_mem hi, by simpa using hp⟩
      have hc : engines[i].params.contains p = true := by simpa using hp
      simp only [hp, hc, passthrough, this, if_true]
    · simp [hp]
  · have h0 : i = 0 := by omega
    subst h0
    simp only [hl, if_false, true_and]
    intro p
    by_cases hp : p ∈ engines[0].params <;> simp [hp]

/-- The options of the user for an engine reach it before the mission. -/
theorem preMissionOptions_spec {ο : Type} (empty : ο) (opts : Dict String ο) (name : String) :
    (∀ o, opts.get? name = some o → preMissionOptions empty opts name = o) ∧
    (name ∉ opts.keys → preMissionOptions empty opts name = empty) := by
  refine ⟨fun o h => by simp [preMissionOptions, h], fun h => ?_⟩
  simp [preMissionOptions, (Dict.get?_eq_none_iff opts name).2 h]

/-- They do not reach it in the mission. -/
theorem mission_options_violated :
    ∃ (opts : Dict String (List String)) (name : String) (o : List String),
      opts.get? name = some o ∧ missionOptions [] opts name ≠ o :=
  ⟨[("turboprop", ["compute_max"])], "turboprop", ["compute_max"], by decide, by decide⟩

/-- Two engines: the first has no maximum values, the second has and lacks fuel flow. -/
def demoEngines : List (Engine ℤ) :=
  [{ name := "a", computesMax := false, useHybrid := false, params := ["s"]
     outputs := fun u => [(.thrust, u.throttle * ((u.param "s").getD 0)), (.thrustMax, 7), (.fuelFlow, -5)] },
   { name := "b", computesMax := true, useHybrid := false, params := []
     outputs := fun u => [(.thrust, u.throttle * 3), (.thrustMax, 30)] }]

/-- Inputs for the two engines. -/
def demoIn : MissionIn ℤ := ⟨fun i => 2 + i, fun _ => 0, fun _ i => 10 + i⟩

example : (demoEngines.map fun e => e.name).Nodup ∧ (∀ e ∈ demoEngines, ∀ u, (e.outputs u).keys.Nodup) := by
  refine ⟨by decide, ?_⟩
  simp [demoEngines, Dict.keys]

example : muxed 0 100 demoEngines demoIn .thrust 0 = 20 ∧ muxed 0 100 demoEngines demoIn .thrustMax 0 = 1000 ∧
    muxed 0 100 demoEngines demoIn .thrust 1 = 9 ∧ muxed 0 100 demoEngines demoIn .thrustMax 1 = 30 ∧
    muxed 0 100 demoEngines demoIn .fuelFlow 1 = 0 := by decide

/-! ### Totals -/

theorem dotFrom_eq (x : ℕ → ℚ) (num : List ℚ) (s : ℕ) :
    dotFrom x num s = (num.zipIdx.map fun p => x (s + p.2) * p.1).sum := by
  induction num generalizing s with
  | nil => rfl
  | cons a r ih =>
    rw [dotFrom, ih, List.zipIdx_cons, List.map_cons, List.sum_cons, List.zipIdx_succ]
    simp only [List.map_map, Function.comp_def, Nat.add_zero]
    congr 3
    funext p
    rw [Nat.add_assoc, Nat.add_comm 1]

/-- A total is the sum over the engine types of the entry times the number of engines. -/
theorem total_eq (num : List ℚ) (x : ℕ → ℚ) (n : ℕ) :
    total num x n = (num.zipIdx.map fun p => x (n * num.length + p.2) * p.1).sum := dotFrom_eq _ _ _

theorem zip_append' {α β : Type} (a a' : List α) (b b' : List β) (h : a.length = b.length) :
    (a ++ a').zip (b ++ b') = a.zip b ++ a'.zip b' := List.zip_append h

theorem sum_lengths (nn : ℕ) (num : List ℚ) :
    (sumRows nn num.length).length = nn * num.length ∧ (sumCols nn num.length).length = nn * num.length ∧
    (sumVals nn num).length = nn * num.length := by
  refine ⟨?_, by simp [sumCols], by simp [sumVals]⟩
  induction nn with
  | zero => simp [sumRows]
  | succ nn ih =>
    unfold sumRows at ih ⊢
    rw [List.range_succ, List.flatMap_append, List.length_append, ih]
    simp [Nat.succ_mul]

theorem sumRows_succ (nn k : ℕ) : sumRows (nn + 1) k = sumRows nn k ++ List.replicate k nn := by
  simp [sumRows, List.range_succ]

theorem sumCols_succ (nn k : ℕ) : sumCols (nn + 1) k = sumCols nn k ++ (List.range k).map fun j => nn * k + j := by
  unfold sumCols
  rw [Nat.succ_mul, List.range_add]

theorem sumVals_succ (nn : ℕ) (num : List ℚ) : sumVals (nn + 1) num = sumVals nn num ++ num := by
  unfold sumVals
  rw [List.replicate_succ', List.flatten_append]; simp

/-- The entries of one block. -/
theorem block_sum (k s : ℕ) (num : List ℚ) (hk : num.length = k) (x : ℕ → ℚ) (n m : ℕ) :
    ((((List.replicate k m).zip (((List.range k).map fun j => s + j).zip num)).filter
      fun e => decide (e.1 = n)).map fun e => e.2.2 * x e.2.1).foldr (· + ·) 0 =
      if m = n then dotFrom x num s else 0 := by
  subst hk
  induction num generalizing s with
  | nil => simp [dotFrom]
  | cons a r ih =>
    rw [List.length_cons, List.replicate_succ, List.range_succ_eq_map, List.map_cons, List.zip_cons_cons,
      List.zip_cons_cons]
    have hr : ((List.map Nat.succ (List.range r.length)).map fun j => s + j) =
        (List.range r.length).map fun j => (s + 1) + j := by
      rw [List.map_map]; congr 1; funext j; simp only [Function.comp]; omega
    rw [hr]
    by_cases h : m = n
    · subst h
      have := ih (s + 1)
      simp only [if_true] at this ⊢
      rw [List.filter_cons_of_pos (by simp), List.map_cons, List.foldr_cons, this, dotFrom]
      simp only [Nat.add_zero]; ring
    · have := ih (s + 1)
      simp only [h, if_false] at this ⊢
      rw [List.filter_cons_of_neg (by simpa using h), this]

theorem foldr_append_add (a b : List ℚ) :
    (a ++ b).foldr (· + ·) 0 = a.foldr (· + ·) 0 + b.foldr (· + ·) 0 := by
  induction a with
  | nil => simp
  | cons c a ih => simp [ih, add_assoc]

/-- The declared partial derivatives are exact: the matrix of rows, columns and values applied to
any vector is the vector of totals. -/
theorem sum_partials_exact (nn : ℕ) (num : List ℚ) (x : ℕ → ℚ) (n : ℕ) :
    cooRow (sumRows nn num.length) (sumCols nn num.length) (sumVals nn num) x n =
      if n < nn then total num x n else 0 := by
  induction nn with
  | zero => simp [cooRow, sumRows]
  | succ nn ih =>
    obtain ⟨l1, l2, l3⟩ := sum_lengths nn num
    unfold cooRow at ih ⊢
    rw [sumRows_succ, sumCols_succ, sumVals_succ, List.zip_append (by rw [l2, l3]),
      List.zip_append (by rw [l1, List.length_zip, l2, l3, Nat.min_self]), List.filter_append, List.map_append, foldr_append_add,
      ih, block_sum _ _ _ rfl]
    by_cases h : nn = n
    · subst h
      simp [total]
    · by_cases h2 : n < nn
      · simp [h2, h, Nat.lt_succ_of_lt h2]
      · have : ¬ n < nn + 1 := by omega
        simp [h2, h, this]

/-- A total is linear, so the matrix is its derivative. -/
theorem total_linear (num : List ℚ) (x y : ℕ → ℚ) (a b : ℚ) (n : ℕ) :
    total num (fun i => a * x i + b * y i) n = a * total num x n + b * total num y n := by
  have : ∀ (l : List ℚ) (s : ℕ), dotFrom (fun i => a * x i + b * y i) l s = a * dotFrom x l s + b * dotFrom y l s := by
    intro l
    induction l with
    | nil => intro s; simp [dotFrom]
    | cons c l ih => intro s; simp only [dotFrom, ih]; ring
  exact this _ _

example : total [2, 3] (fun i => (i : ℚ)) 4 = 8 * 2 + 9 * 3 := by
  norm_num [total, dotFrom]

/-- Options of the right kind are read, without options nothing is read, anything else is an error. -/
theorem enter_ok (k : OptKind) (b : Bool) : enter k = .ok b ↔ k ≠ .noMethods ∧ (b = true ↔ k = .aviaryValues) := by
  cases k <;> cases b <;> simp [enter]

end Verif.PropMission
