import Verif.Model.FortranStore
import Verif.Lemmas.Dict
import Verif.Props.FortranDeck
import Mathlib.Data.List.Perm.Basic
import Mathlib.Data.List.Infix
import Mathlib.Tactic.Ring
import Mathlib.Tactic.Linarith

/-!
# C71: legacy values are stored under the right Aviary name, at the right index and with the right units
-/

namespace Verif.Fortran
open Verif.Dict

/-! ## `set_value` -/

/-- A successful `set_value` changes only its own entry. -/
theorem setValue_ok {md : Dict Txt String} {name : Txt} {vals : List PVal} {units : String} {d d' : LV}
    {ind : Option Int} (h : setValue md name vals units d ind = .ok d') :
    ∃ v, entryValue ((d.get? name).map Prod.fst) vals ind = .ok v ∧
      d'.get? name = some (v, entryUnits md name (d.get? name) units) ∧ ∀ k, k ≠ name → d'.get? k = d.get? k := by
  unfold setValue at h
  cases hv : entryValue ((d.get? name).map Prod.fst) vals ind with
  | error e => rw [hv] at h; cases h
  | ok v =>
    rw [hv] at h; cases h
    exact ⟨v, rfl, get?_set_self _ _ _, fun k hk => get?_set_ne _ _ (Ne.symm hk)⟩

/-- Once a variable is stored its units never change again, whatever units come with a later value. -/
theorem setValue_units_fixed {md : Dict Txt String} {name : Txt} {vals xs : List PVal} {units u : String} {d d' : LV}
    {ind : Option Int} (hd : d.get? name = some (xs, u)) (hu : u ≠ "")
    (h : setValue md name vals units d ind = .ok d') : ∃ v, d'.get? name = some (v, u) := by
  obtain ⟨v, -, h2, -⟩ := setValue_ok h
  exact ⟨v, by rw [h2, hd]; simp [entryUnits, hu]⟩

/-- A new variable is stored with the units given, otherwise with those of the metadata. -/
theorem entryUnits_new (md : Dict Txt String) (name : Txt) (units : String) :
    entryUnits md name none units = (if units ≠ "" then units else
      if (md.get? name).getD "" = "" then "unitless" else (md.get? name).getD "") := by
  unfold entryUnits
  by_cases h : units = ""
  · subst h
    cases hm : md.get? name <;> simp
  · cases hm : md.get? name <;> simp [h]

/-- Stored units are never empty. -/
theorem entryUnits_ne (md : Dict Txt String) (name : Txt) (old : Option (List PVal × String)) (units : String) :
    entryUnits md name old units ≠ "" := by
  have key : ∀ u : String, (if u = "" then "unitless" else u) ≠ "" := by
    intro u
    by_cases h : u = "" <;> simp [h]
  exact key _

/-! ## Indexed elements -/

/-- The list after element `n` was written: longer lists keep their length, shorter ones are filled with zeros. -/
def write (xs : List PVal) (n : ℕ) (v : PVal) : List PVal :=
  (xs ++ List.replicate (n + 1 - xs.length) (PVal.int 0)).set n v

theorem write_get (xs : List PVal) (n : ℕ) (v : PVal) (j : ℕ) :
    (write xs n v)[j]? =
      if j = n then some v else if j < xs.length then xs[j]? else if j < n then some (.int 0) else none := by
  unfold write
  rw [List.getElem?_set]
  simp only [List.length_append, List.length_replicate]
  by_cases h : j = n
  · subst h
    have : j < xs.length + (j + 1 - xs.length) := by omega
    simp [this]
  · have h' : ¬ n = j := fun e => h e.symm
    simp only [h, h', if_false]
    by_cases h1 : j < xs.length
    · rw [if_pos h1, List.getElem?_append_left h1]
    · simp only [h1, if_false]
      rw [List.getElem?_append_right (by omega), List.getElem?_replicate]
      have : (j - xs.length < n + 1 - xs.length) ↔ j < n := by omega
      simp [this]

/-- `set_value` with an index from 0 on writes that element. -/
theorem entryValue_write (xs : List PVal) (n : ℕ) (v : PVal) (rest : List PVal) :
    entryValue (some xs) (v :: rest) (some (n : Int)) = .ok (write xs n v) := by
  have h1 : ((n : Int) - ((xs.length : Int) - 1)).toNat = n + 1 - xs.length := by omega
  have h2 : n < (xs ++ List.replicate (n + 1 - xs.length) (PVal.int 0)).length := by simp; omega
  simp only [entryValue, setAt, indexBase, h1, write, Int.natCast_nonneg, if_true, Int.toNat_natCast, if_pos h2]

/-- On a variable that is not stored yet the elements before it start with `None`. -/
theorem entryValue_fresh (n : ℕ) (v : PVal) (rest : List PVal) :
    entryValue none (v :: rest) (some (n : Int)) = .ok (write [.none] n v) := by
  simp [entryValue, setAt, indexBase, write]

/-- Writes to different elements commute. -/
theorem write_comm (xs : List PVal) (n m : ℕ) (v w : PVal) (h : n ≠ m) :
    write (write xs n v) m w = write (write xs m w) n v := by
  have hl : ∀ xs n v, (write xs n v).length = max xs.length (n + 1) := by
    intro xs n v; simp [write]; omega
  apply List.ext_getElem?
  intro j
  simp only [write_get, hl]
  have h' : m ≠ n := fun e => h e.symm
  by_cases h1 : j = m <;> by_cases h2 : j = n
  · subst h1; exact absurd h2.symm h
  · subst h1; simp [h2]
  · subst h2; simp [h1]
  · simp only [h1, h2, if_false]
    by_cases a : j < xs.length
    · simp [a]
    · simp only [a, if_false]
      have e1 : j < max xs.length (n + 1) ↔ j < n := by omega
      have e2 : j < max xs.length (m + 1) ↔ j < m := by omega
      by_cases b : j < n <;> by_cases c : j < m <;> simp [e1, e2, b, c]

theorem writes_append (vs : List PVal) : ∀ (ys : List PVal), 
    (vs.zipIdx ys.length).foldl (fun xs p => write xs p.2 p.1) ys = ys ++ vs := by
  induction vs with
  | nil => intro ys; simp
  | cons v vs ih =>
    intro ys
    have hw : write ys ys.length v = ys ++ [v] := by simp [write]
    have := ih (ys ++ [v])
    simp only [List.zipIdx_cons, List.foldl_cons, hw]
    simpa [List.append_assoc] using this

/-- The elements of a list given one by one, in any order, make up the list. -/
theorem writes_any_order (vs : List PVal) (hne : vs ≠ []) (ws : List (PVal × ℕ)) (hp : ws.Perm vs.zipIdx) :
    ws.foldl (fun xs p => write xs p.2 p.1) [.none] = vs := by
  have hc : ∀ x ∈ vs.zipIdx, ∀ y ∈ vs.zipIdx, ∀ z : List PVal,
      write (write z x.2 x.1) y.2 y.1 = write (write z y.2 y.1) x.2 x.1 := by
    intro x hx y hy z
    by_cases h : x.2 = y.2
    · have hx' := List.mem_zipIdx hx
      have hy' := List.mem_zipIdx hy
      have : x = y := by
        rcases x with ⟨a, i⟩; rcases y with ⟨b, j⟩
        simp only at h; subst h
        simp only at hx' hy'
        rw [hx'.2.2, hy'.2.2]
      rw [this]
    · exact write_comm _ _ _ _ _ h
  rw [List.Perm.foldl_eq' hp (fun x hx y hy z => hc y (hp.mem_iff.1 hy) x (hp.mem_iff.1 hx) z ▸ rfl)]
  rcases vs with _ | ⟨v, vs⟩
  · exact absurd rfl hne
  · have := writes_append vs [v]
    simp only [List.zipIdx_cons, List.foldl_cons]
    have hw : write [.none] 0 v = [v] := by simp [write]
    rw [hw]; simpa using this

/-- The same through `set_value`: a list given element by element, in any order, is stored as the list. -/
theorem setValue_any_order (md : Dict Txt String) (name : Txt) (units : String) (d : LV) (hd : d.get? name = none)
    (vs : List PVal) (hne : vs ≠ []) (ws : List (PVal × ℕ)) (hp : ws.Perm vs.zipIdx) :
    ∃ d', ws.foldlM (fun d p => setValue md name [p.1] units d (some (p.2 : Int))) d = .ok d' ∧
      ∃ u, d'.get? name = some (vs, u) := by
  have key : ∀ (ws : List (PVal × ℕ)) (d : LV) (xs : List PVal) (u : String), d.get? name = some (xs, u) →
      ∃ d', ws.foldlM (fun d p => setValue md name [p.1] units d (some (p.2 : Int))) d = .ok d' ∧
        ∃ u, d'.get? name = some (ws.foldl (fun xs p => write xs p.2 p.1) xs, u) := by
    intro ws
    induction ws with
    | nil => intro d xs u h; exact ⟨d, rfl, u, h⟩
    | cons p ws ih =>
      intro d xs u h
      have h1 : setValue md name [p.1] units d (some (p.2 : Int)) =
          .ok (d.set name (write xs p.2 p.1, entryUnits md name (some (xs, u)) units)) := by
        simp [setValue, h, entryValue_write, bind, Except.bind]
      obtain ⟨d', h2, h3⟩ := ih _ (write xs p.2 p.1) _ (get?_set_self d name _)
      refine ⟨d', ?_, h3⟩
      rw [List.foldlM_cons, h1]; exact h2
  have hws := writes_any_order vs hne ws hp
  rcases ws with _ | ⟨p, ws⟩
  · exfalso
    apply hne
    have := hp.length_eq
    simpa using this.symm
  · have h1 : setValue md name [p.1] units d (some (p.2 : Int)) =
        .ok (d.set name (write [.none] p.2 p.1, entryUnits md name none units)) := by
      simp [setValue, hd, entryValue_fresh, bind, Except.bind]
    obtain ⟨d', h2, u, h3⟩ := key ws _ (write [.none] p.2 p.1) _ (get?_set_self d name _)
    refine ⟨d', ?_, u, ?_⟩
    · rw [List.foldlM_cons, h1]; exact h2
    · rw [h3, ← hws]; rfl

example : [(PVal.int 30, 2), (.int 10, 0), (.int 20, 1)].Perm [PVal.int 10, .int 20, .int 30].zipIdx := by
  simp only [List.zipIdx_cons, List.zipIdx_nil]
  exact (List.Perm.swap _ _ _).trans ((List.Perm.swap _ _ _).cons _)

/-- A list that never gets its first element starts with `None`. -/
theorem missing_first_violated (n : ℕ) (v : PVal) :
    ∃ xs, entryValue none [v] (some ((n + 1 : ℕ) : Int)) = .ok (.none :: xs) := by
  refine ⟨(List.replicate (n + 1) (.int 0)).set n v, ?_⟩
  rw [entryValue_fresh]
  simp [write]

/-- Index 0 inside a namelist (Fortran counts from 1) silently overwrites the last element. -/
theorem index_zero_violated (xs : List PVal) (x v : PVal) :
    entryValue (some (xs ++ [x])) [v] (some (0 - 1)) = .ok (xs ++ [v]) := by
  have h0 : (0 - 1 - (((xs ++ [x]).length : Int) - 1)).toNat = 0 := by simp
  simp only [entryValue, indexBase, h0, setAt]
  simp

/-! ## Booleans -/

/-- A number replacing a stored boolean becomes the text of the boolean. -/
theorem bool_converted (b : Bool) (rest : List PVal) (v : PVal) (vs : List PVal) :
    (eqNum v 1 = true → entryValue (some (.bool b :: rest)) (v :: vs) none = .ok [.str "True"]) ∧
    (eqNum v 0 = true → entryValue (some (.bool b :: rest)) (v :: vs) none = .ok [.str "False"]) := by
  refine ⟨fun h => by simp [entryValue, h], fun h => ?_⟩
  have : eqNum v 1 = false := by
    cases v <;> simp_all [eqNum]
  simp [entryValue, h, this]

/-- Any other number is stored for a boolean variable without an error. -/
theorem bool_range_violated (b : Bool) (rest : List PVal) (i : Int) (h0 : i ≠ 0) (h1 : i ≠ 1) :
    entryValue (some (.bool b :: rest)) [.int i] none = .ok [.int i] := by
  have a : eqNum (.int i) 1 = false := by simp [eqNum]; exact_mod_cast h1
  have b : eqNum (.int i) 0 = false := by simp [eqNum]; exact_mod_cast h0
  simp [entryValue, a, b]

/-- A second number for the same boolean variable is stored as a number. -/
theorem bool_twice_violated (b : Bool) (rest : List PVal) :
    entryValue (some (.bool b :: rest)) [.int 0] none = .ok [.str "False"] ∧
    entryValue (some [.str "False"]) [.int 1] none = .ok [.int 1] := by
  constructor
  · exact (bool_converted b rest (.int 0) []).2 (by simp [eqNum])
  · rfl

/-! ## Names -/

theorem matchAlts_sound (name key : Txt) (as : List Txt) : ∀ (acc : List Txt) (ind : Option Int) (k : Txt),
    k ∈ (matchAlts name key as (acc, ind)).1 → k ∈ acc ∨ k = key ∧ ∃ a ∈ as, endsWith (lower a) (lower name) = true ∨
      ∃ i, ind = some i ∧ endsWith (lower a) (lower name ++ showIndex i) = true := by
  induction as with
  | nil => intro acc ind k h; exact Or.inl h
  | cons a as ih =>
    intro acc ind k h
    unfold matchAlts at h
    split at h
    · rename_i he
      rcases ih _ _ _ h with h | ⟨hk, x, hx, hh⟩
      · rcases List.mem_append.1 h with h | h
        · exact Or.inl h
        · simp at h; exact Or.inr ⟨h, a, by simp, Or.inl he⟩
      · exact Or.inr ⟨hk, x, List.mem_cons_of_mem _ hx, hh⟩
    · split at h
      · rename_i i
        split at h
        · rename_i he
          rcases ih _ _ _ h with h | ⟨hk, x, hx, hh⟩
          · rcases List.mem_append.1 h with h | h
            · exact Or.inl h
            · simp at h; exact Or.inr ⟨h, a, by simp, Or.inr ⟨i, rfl, he⟩⟩
          · rcases hh with hh | ⟨j, hj, -⟩
            · exact Or.inr ⟨hk, x, List.mem_cons_of_mem _ hx, Or.inl hh⟩
            · cases hj
        · rcases ih _ _ _ h with h | ⟨hk, x, hx, hh⟩
          · exact Or.inl h
          · exact Or.inr ⟨hk, x, List.mem_cons_of_mem _ hx, hh⟩
      · rcases ih _ _ _ h with h | ⟨hk, x, hx, hh⟩
        · exact Or.inl h
        · exact Or.inr ⟨hk, x, List.mem_cons_of_mem _ hx, hh⟩

theorem matchAlts_ind (name key : Txt) (as : List Txt) : ∀ (acc : List Txt) (ind : Option Int),
    (matchAlts name key as (acc, ind)).2 = ind ∨ (matchAlts name key as (acc, ind)).2 = none := by
  induction as with
  | nil => intro acc ind; exact Or.inl rfl
  | cons a as ih =>
    intro acc ind
    unfold matchAlts
    split
    · exact ih _ _
    · split
      · split
        · rcases ih (acc ++ [key]) none with h | h <;> exact Or.inr h
        · exact ih _ _
      · exact ih _ _

theorem matchAlts_mono (name key : Txt) (as : List Txt) : ∀ (acc : List Txt) (ind : Option Int) (k : Txt), k ∈ acc →
    k ∈ (matchAlts name key as (acc, ind)).1 := by
  induction as with
  | nil => intro acc ind k h; exact h
  | cons a as ih =>
    intro acc ind k h
    unfold matchAlts
    split
    · exact ih _ _ _ (by simp [h])
    · split
      · split
        · exact ih _ _ _ (by simp [h])
        · exact ih _ _ _ h
      · exact ih _ _ _ h

theorem matchAlts_complete (name key : Txt) (as : List Txt) : ∀ (acc : List Txt) (ind : Option Int) (a : Txt), a ∈ as →
    endsWith (lower a) (lower name) = true → key ∈ (matchAlts name key as (acc, ind)).1 := by
  induction as with
  | nil => intro acc ind a h; simp at h
  | cons b as ih =>
    intro acc ind a ha he
    unfold matchAlts
    rcases List.mem_cons.1 ha with rfl | ha
    · rw [if_pos he]; exact matchAlts_mono _ _ _ _ _ _ (by simp)
    · split
      · exact ih _ _ a ha he
      · split
        · split <;> exact ih _ _ a ha he
        · exact ih _ _ a ha he

theorem matchAll_mono (name : Txt) (alts : List (Txt × Option (List Txt))) : ∀ (st : List Txt × Option Int) (k : Txt),
    k ∈ st.1 → k ∈ (matchAll name alts st).1 := by
  induction alts with
  | nil => intro st k h; exact h
  | cons p alts ih =>
    intro st k h
    rcases p with ⟨key, _ | as⟩
    · exact ih st k h
    · exact ih _ k (matchAlts_mono name key as st.1 st.2 k h)

theorem matchAll_sound (name : Txt) (alts : List (Txt × Option (List Txt))) : ∀ (st : List Txt × Option Int) (k : Txt),
    k ∈ (matchAll name alts st).1 → k ∈ st.1 ∨ ∃ as, (k, some as) ∈ alts ∧ ∃ a ∈ as,
      endsWith (lower a) (lower name) = true ∨ ∃ i, st.2 = some i ∧ endsWith (lower a) (lower name ++ showIndex i) = true := by
  induction alts with
  | nil => intro st k h; exact Or.inl h
  | cons p alts ih =>
    intro st k h
    rcases p with ⟨key, _ | as⟩
    · rcases ih st k h with h | ⟨as, h1, h2⟩
      · exact Or.inl h
      · exact Or.inr ⟨as, List.mem_cons_of_mem _ h1, h2⟩
    · rcases ih _ k h with h | ⟨bs, h1, a, ha, h2⟩
      · rcases matchAlts_sound name key as st.1 st.2 k h with h | ⟨rfl, h'⟩
        · exact Or.inl h
        · exact Or.inr ⟨as, by simp, h'⟩
      · refine Or.inr ⟨bs, List.mem_cons_of_mem _ h1, a, ha, ?_⟩
        rcases h2 with h2 | ⟨i, hi, h2⟩
        · exact Or.inl h2
        · rcases matchAlts_ind name key as st.1 st.2 with e | e
          · rw [show (matchAlts name key as st).2 = st.2 from e] at hi
            exact Or.inr ⟨i, hi, h2⟩
          · rw [show (matchAlts name key as st).2 = none from e] at hi; cases hi

theorem matchAll_complete (name : Txt) (alts : List (Txt × Option (List Txt))) : ∀ (st : List Txt × Option Int)
    (k : Txt) (as : List Txt) (a : Txt), (k, some as) ∈ alts → a ∈ as → endsWith (lower a) (lower name) = true →
    k ∈ (matchAll name alts st).1 := by
  induction alts with
  | nil => intro st k as a h; simp at h
  | cons p alts ih =>
    intro st k as a h ha he
    rcases List.mem_cons.1 h with h' | h'
    · subst h'
      rw [matchAll]
      exact matchAll_mono name alts _ _ (matchAlts_complete name k as st.1 st.2 a ha he)
    · rcases p with ⟨key, _ | bs⟩
      · exact ih st k as a h' ha he
      · exact ih _ k as a h' ha he

variable {rt : TxtRT}

/-- Every Aviary variable that lists the legacy name is found. -/
theorem updateName_complete {alts : List (Txt × Option (List Txt))} {full name : Txt} {ind : Option Int}
    {names : List Txt} {ind' : Option Int} (hs : splitIndex rt full = .ok (name, ind))
    (h : updateName rt alts full = .ok (names, ind')) {k : Txt} {as : List Txt} {a : Txt} (hk : (k, some as) ∈ alts)
    (ha : a ∈ as) (he : endsWith (lower a) (lower name) = true) : k ∈ names := by
  have hm := matchAll_complete name alts ([], ind) k as a hk ha he
  unfold updateName at h
  rw [hs] at h
  simp only [bind, Except.bind] at h
  split at h
  · rename_i e; rw [e] at hm; simp at hm
  · rename_i e; cases h; rw [e] at hm; exact hm

/-- Every name that is returned is either an Aviary variable one of whose legacy names ends with the name of the
deck, with or without the index, or it is the name of the deck itself. -/
theorem updateName_sound {alts : List (Txt × Option (List Txt))} {full name : Txt} {ind : Option Int}
    {names : List Txt} {ind' : Option Int} (hs : splitIndex rt full = .ok (name, ind))
    (h : updateName rt alts full = .ok (names, ind')) {k : Txt} (hk : k ∈ names) :
    (∃ as, (k, some as) ∈ alts ∧ ∃ a ∈ as, endsWith (lower a) (lower name) = true ∨
      ∃ i, ind = some i ∧ endsWith (lower a) (lower name ++ showIndex i) = true) ∨
    (names = [name] ∧ k = name) := by
  unfold updateName at h
  rw [hs] at h
  simp only [bind, Except.bind] at h
  split at h
  · cases h; simp at hk; exact Or.inr ⟨rfl, hk⟩
  · rename_i e
    cases h
    have := matchAll_sound name alts ([], ind) k (by rw [e]; exact hk)
    rcases this with h | h
    · simp at h
    · exact Or.inl h

theorem updateName_ne_nil {alts : List (Txt × Option (List Txt))} {full : Txt} {names : List Txt} {ind' : Option Int}
    (h : updateName rt alts full = .ok (names, ind')) : names ≠ [] := by
  unfold updateName at h
  cases hs : splitIndex rt full with
  | error e => rw [hs] at h; cases h
  | ok r =>
    rw [hs] at h
    simp only [bind, Except.bind] at h
    rcases hm : matchAll r.1 alts ([], r.2) with ⟨_ | ⟨n, ns⟩, i⟩
    · rw [hm] at h; cases h; simp
    · rw [hm] at h; cases h; simp

theorem splitIndex_plain {full : Txt} (h : '(' ∉ full) : splitIndex rt full = .ok (full, none) := by
  simp [splitIndex, h]

theorem splitIndex_indexed {base inner : Txt} {i : Int} (h1 : '(' ∉ base) (h2 : '(' ∉ inner) (h3 : ')' ∉ inner)
    (hi : rt.pyInt inner = some i) : splitIndex rt (base ++ '(' :: inner ++ [')']) = .ok (base, some i) := by
  have e1 : splitChar '(' (base ++ '(' :: (inner ++ [')'])) = [base, inner ++ [')']] := by
    rw [splitChar_sep _ _ h1, splitChar_single]
    simp [h2]
  have e2 : splitChar ')' (inner ++ [')']) = [inner, []] := by
    rw [splitChar_sep _ _ h3]; rfl
  have e3 : '(' ∈ base ++ '(' :: (inner ++ [')']) := by simp
  have e4 : base ++ '(' :: inner ++ [')'] = base ++ '(' :: (inner ++ [')']) := by simp
  unfold splitIndex
  rw [e4, if_pos e3, e1]
  simp [e2, hi]

theorem endsWith_suffix {a s : Txt} : endsWith a s = true ↔ s <:+ a := by
  simp [endsWith]

theorem endsWith_self (a : Txt) : endsWith a a = true := endsWith_suffix.2 (List.suffix_refl a)

/-- Of two qualified names the match means: same variable, and the namelist of the deck is an ending of the other. -/
theorem endsWith_qualified {a v ns var : Txt} (hv : '.' ∉ v) (hvar : '.' ∉ var)
    (h : endsWith (a ++ '.' :: v) (ns ++ '.' :: var) = true) : v = var ∧ ns <:+ a := by
  obtain ⟨t, ht⟩ := endsWith_suffix.1 h
  have e := congrArg (fun s => (splitChar '.' s.reverse)) ht
  simp only [List.reverse_append, List.reverse_cons, List.append_assoc, List.nil_append,
    List.cons_append] at e
  rw [splitChar_sep _ _ (by simpa using hvar), splitChar_sep _ _ (by simpa using hv)] at e
  have e1 : var = v := by
    have := (List.cons.inj e).1
    exact List.reverse_injective this
  subst e1
  refine ⟨rfl, t, ?_⟩
  have : t ++ ns ++ '.' :: var = a ++ '.' :: var := by rw [← ht]; simp
  exact List.append_cancel_right this

/-- A legacy name in the metadata without its namelist is never found: every name handed over contains a dot. -/
theorem unqualified_unreachable_violated {a ns var : Txt} (h : '.' ∉ lower a) :
    endsWith (lower a) (lower (fullName ns var)) = false := by
  by_contra hc
  have hc : endsWith (lower a) (lower (fullName ns var)) = true := by simpa using hc
  apply h
  exact (endsWith_suffix.1 hc).subset (by
    simp only [lower, fullName, List.mem_map, List.mem_append, List.mem_cons]
    exact ⟨'.', by simp, by decide⟩)

example : '.' ∉ lower "CW(16)".toList := by decide

/-- An element that two Aviary variables list as their legacy name is stored under the first of them only. -/
theorem second_element_violated :
    (matchAll "n.cw".toList [("a".toList, some ["N.CW(3)".toList]), ("b".toList, some ["N.CW(3)".toList])] ([], some 3)).1 =
      ["a".toList] := by decide

/-! ## Deprecated variables -/

theorem matchAt_append (p r : Txt) : matchAt p (p ++ r) = true := by
  induction p with
  | nil => simp [matchAt]
  | cons c p ih => simp [matchAt, ih]

theorem search_infix (p a r : Txt) : search p (a ++ (p ++ r)) = true := by
  induction a with
  | nil =>
    have h := matchAt_append p r
    rw [List.nil_append]
    cases hp : p ++ r with
    | nil => rw [hp] at h; exact h
    | cons c cs => rw [hp] at h; simp [search, h]
  | cons c a ih => simp [search, ih]

theorem matchAt_short (p : Txt) : ∀ s : Txt, s.length < p.length → matchAt p s = false := by
  induction p with
  | nil => intro s h; simp at h
  | cons c p ih =>
    intro s h
    cases s with
    | nil => rfl
    | cons d s => simp [matchAt, ih s (by simpa using h)]

theorem search_short (p s : Txt) (h : s.length < p.length) : search p s = false := by
  induction s with
  | nil => exact matchAt_short _ _ h
  | cons c s ih => simp [search, matchAt_short _ _ h, ih (by simp at h; omega)]

theorem pyStrList_infix (xs : List Txt) (x : Txt) (hx : x ∈ xs) : x <:+: pyStrList xs := by
  have key : ∀ xs : List Txt, x ∈ xs → x <:+: pyStrList.joinWith xs := by
    intro xs
    induction xs with
    | nil => intro h; simp at h
    | cons y ys ih =>
      intro h
      rcases ys with _ | ⟨z, zs⟩
      · simp at h; subst h
        exact ⟨['\''], ['\''], by simp [pyStrList.joinWith]⟩
      · rw [pyStrList.joinWith]
        · rcases List.mem_cons.1 h with rfl | h
          · exact ⟨['\''], '\'' :: ',' :: ' ' :: pyStrList.joinWith (z :: zs), by simp⟩
          · obtain ⟨s, t, e⟩ := ih h
            exact ⟨'\'' :: y ++ '\'' :: ',' :: ' ' :: s, t, by rw [← e]; simp⟩
        · simp
  obtain ⟨s, t, e⟩ := key xs hx
  exact ⟨'[' :: s, t ++ [']'], by rw [pyStrList, ← e]; simp⟩

/-- Every piece of a deprecated name is skipped, so every deprecated variable is. -/
theorem skipped_infix (cv : Conv) (full dep : Txt) (hd : dep ∈ cv.deprecated) (hp : '(' ∉ full ∧ ')' ∉ full)
    (hl : lower full <:+: lower dep) : skipped cv full = true := by
  have hf : full.filter (fun c => c ≠ '(' && c ≠ ')') = full := by
    rw [List.filter_eq_self]
    intro c hc
    have h1 : c ≠ '(' := by rintro rfl; exact hp.1 hc
    have h2 : c ≠ ')' := by rintro rfl; exact hp.2 hc
    simp [h1, h2]
  obtain ⟨s, t, e⟩ := pyStrList_infix _ _ hd
  obtain ⟨s', t', e'⟩ := hl
  unfold skipped
  rw [hf, ← e]
  have : lower (s ++ dep ++ t) = (lower s ++ s') ++ (lower full ++ (t' ++ lower t)) := by
    have : lower (s ++ dep ++ t) = lower s ++ lower dep ++ lower t := by simp [lower]
    rw [this, ← e']; simp
  rw [this]
  exact search_infix _ _ _

theorem deprecated_skipped (cv : Conv) (ns name data dep : Txt) (st : Vehicle) (hd : dep ∈ cv.deprecated)
    (hp : '(' ∉ fullName ns name ∧ ')' ∉ fullName ns name) (hl : lower (fullName ns name) = lower dep) :
    store rt cv ns name data st = .ok st := by
  simp [store, skipped_infix cv _ dep hd hp (by rw [hl])]

/-- The power code `PC` of namelist `ENGDIN` is skipped because `ENGDIN.PCODE` is deprecated. -/
theorem deprecated_prefix_violated (cv : Conv) (h : "ENGDIN.PCODE".toList ∈ cv.deprecated) (data : Txt) (st : Vehicle) :
    store rt cv "ENGDIN".toList "PC".toList data st = .ok st := by
  have := skipped_infix cv (fullName "ENGDIN".toList "PC".toList) _ h (by decide) ⟨[], "ode".toList, by decide⟩
  unfold store
  exact if_pos this

/-- With an empty list of deprecated variables (GASP) nothing is skipped. -/
theorem none_skipped (cv : Conv) (h : cv.deprecated = []) (ns name : Txt) (hn : 2 < (fullName ns name).length)
    (hp : '(' ∉ fullName ns name ∧ ')' ∉ fullName ns name) : skipped cv (fullName ns name) = false := by
  generalize fullName ns name = full at *
  have hf : full.filter (fun c => c ≠ '(' && c ≠ ')') = full := by
    rw [List.filter_eq_self]
    intro c hc
    have h1 : c ≠ '(' := by rintro rfl; exact hp.1 hc
    have h2 : c ≠ ')' := by rintro rfl; exact hp.2 hc
    simp [h1, h2]
  unfold skipped
  rw [hf, h]
  apply search_short
  have h2 : (lower (pyStrList [])).length = 2 := by decide
  have h3 : (lower full).length = full.length := by unfold lower; exact List.length_map _
  rw [h2, h3]; exact hn

/-! ## `process_and_store_data` -/

variable {cv : Conv}

theorem storeName_core {full : Txt} {vals : List PVal} {ind : Option Int} {st : Vehicle × String} {name : Txt}
    (hm : cv.md.has name = true) (hg : ¬ (name ∈ guessNames ∧ cv.gasp = true)) :
    storeName rt cv full false vals ind st name = (do
      let d ← setValue cv.md name vals ((cv.defaults.get? full).getD "") st.1.input ind
      .ok ({ st.1 with input := d }, (cv.defaults.get? full).getD "")) := by
  have : ¬ (false = false ∧ name ∈ guessNames ∧ cv.gasp = true) := fun h => hg h.2
  rw [storeName, if_neg this, if_pos ⟨rfl, hm⟩]

/-- Storing under metadata names: each of them gets its new entry, computed from its own old entry, the units of the
defaults or of the metadata; nothing else changes. -/
theorem storeNames_core {full : Txt} {vals : List PVal} {ind : Option Int} (names : List Txt)
    (hm : ∀ n ∈ names, cv.md.has n = true) (hg : ∀ n ∈ names, ¬ (n ∈ guessNames ∧ cv.gasp = true))
    (hn : names.Nodup) : ∀ (st st' : Vehicle × String),
    names.foldlM (storeName rt cv full false vals ind) st = .ok st' →
    st'.1.unused = st.1.unused ∧ st'.1.guesses = st.1.guesses ∧
    (∀ k, k ∉ names → st'.1.input.get? k = st.1.input.get? k) ∧
    ∀ k ∈ names, ∃ v, entryValue ((st.1.input.get? k).map Prod.fst) vals ind = .ok v ∧
      st'.1.input.get? k = some (v, entryUnits cv.md k (st.1.input.get? k) ((cv.defaults.get? full).getD "")) := by
  induction names with
  | nil => intro st st' h; cases h; simp
  | cons n names ih =>
    intro st st' h
    rw [List.foldlM_cons, storeName_core (hm n (by simp)) (hg n (by simp))] at h
    cases hs : setValue cv.md n vals ((cv.defaults.get? full).getD "") st.1.input ind with
    | error e => rw [hs] at h; cases h
    | ok d =>
      rw [hs] at h
      simp only [bind, Except.bind] at h
      obtain ⟨v, h1, h2, h3⟩ := setValue_ok hs
      have hn' := List.nodup_cons.1 hn
      obtain ⟨i1, i2, i3, i4⟩ := ih (fun x hx => hm x (List.mem_cons_of_mem _ hx))
        (fun x hx => hg x (List.mem_cons_of_mem _ hx)) hn'.2 _ _ h
      refine ⟨i1, i2, ?_, ?_⟩
      · intro k hk
        simp only [List.mem_cons, not_or] at hk
        rw [i3 k hk.2]; exact h3 k hk.1
      · intro k hk
        rcases List.mem_cons.1 hk with rfl | hk'
        · exact ⟨v, h1, by rw [i3 _ hn'.1]; exact h2⟩
        · have hkn : k ≠ n := by rintro rfl; exact hn'.1 hk'
          obtain ⟨w, h4, h5⟩ := i4 k hk'
          simp only [h3 k hkn] at h4 h5
          exact ⟨w, h4, h5⟩

/-- The whole of one assignment to a variable Aviary knows. -/
theorem store_core {ns name data : Txt} {st st' : Vehicle} {names : List Txt} {ind : Option Int} {vals : List PVal}
    {units : String} (hsk : skipped cv (fullName ns name) = false) (hgr : fullName ns name ≠ "INPROP.GR".toList)
    (hd : readData rt data = (false, vals, units)) (hu : updateName rt cv.alts (fullName ns name) = .ok (names, ind))
    (hm : ∀ n ∈ names, cv.md.has n = true) (hg : ∀ n ∈ names, ¬ (n ∈ guessNames ∧ cv.gasp = true)) (hn : names.Nodup)
    (h : store rt cv ns name data st = .ok st') :
    st'.unused = st.unused ∧ st'.guesses = st.guesses ∧ (∀ k, k ∉ names → st'.input.get? k = st.input.get? k) ∧
    ∀ k ∈ names, ∃ v,
      entryValue ((st.input.get? k).map Prod.fst) vals (ind.map (fun i => if ns = [] then i else i - 1)) = .ok v ∧
      st'.input.get? k =
        some (v, entryUnits cv.md k (st.input.get? k) ((cv.defaults.get? (fullName ns name)).getD "")) := by
  unfold store at h
  simp only [hsk, Bool.false_eq_true, if_false, hd, hu, bind, Except.bind, if_neg hgr] at h
  split at h
  · cases h
  · rename_i r hr
    cases h
    exact storeNames_core names hm hg hn (st, units) r hr

/-- The units written in the deck have no effect on a variable Aviary knows. -/
theorem written_units_violated {ns name : Txt} {vs : List Txt} {u : Txt} (st : Vehicle) (hvs : vs ≠ [])
    (hne : ∀ v ∈ vs, v ≠ [] ∧ ',' ∉ v) (hu : u ≠ [] ∧ ',' ∉ u) (hv : rt.validUnits u = true)
    (hl : ∀ v, vs.getLast? = some v → rt.validUnits v = false)
    (hm : ∀ names ind, updateName rt cv.alts (fullName ns name) = .ok (names, ind) →
      ∀ n ∈ names, cv.md.has n = true ∧ ¬ (n ∈ guessNames ∧ cv.gasp = true)) :
    store rt cv ns name (joinChar ',' (vs ++ [u])) st = store rt cv ns name (joinChar ',' vs) st := by
  have hr1 : readData rt (joinChar ',' (vs ++ [u])) = (false, vs.map (convertEntry rt), String.ofList u) := by
    unfold readData
    rw [splitChar_join _ _ (by simp)]
    · have : (vs ++ [u]).filter (fun t => decide (t ≠ [])) = vs ++ [u] := by
        rw [List.filter_eq_self]
        intro t ht
        rcases List.mem_append.1 ht with ht | ht
        · simp [(hne t ht).1]
        · simp at ht; subst ht; simp [hu.1]
      simp only [this]
      simp [hv]
    · intro p hp
      rcases List.mem_append.1 hp with hp | hp
      · exact (hne p hp).2
      · simp at hp; subst hp; exact hu.2
  have hr2 : readData rt (joinChar ',' vs) = (false, vs.map (convertEntry rt), "") := by
    unfold readData
    rw [splitChar_join _ _ hvs (fun p hp => (hne p hp).2)]
    have : vs.filter (fun t => decide (t ≠ [])) = vs := by
      rw [List.filter_eq_self]; intro t ht; simp [(hne t ht).1]
    simp only [this]
    cases hg : vs.getLast? with
    | none => simp at hg; exact absurd hg hvs
    | some v => simp [hl v hg]
  unfold store
  simp only [hr1, hr2]
  cases hn : updateName rt cv.alts (fullName ns name) with
  | error e => rfl
  | ok r =>
    obtain ⟨names, ind⟩ := r
    have hmm := hm names ind hn
    have hnn := updateName_ne_nil hn
    rcases names with _ | ⟨n, names⟩
    · exact absurd rfl hnn
    · simp only [bind, Except.bind, List.foldlM_cons]
      rw [storeName_core (hmm n (by simp)).1 (hmm n (by simp)).2,
        storeName_core (hmm n (by simp)).1 (hmm n (by simp)).2]

/-- The gear ratio of a GASP deck cannot be converted: the call raises whatever the data is. -/
theorem gear_ratio_violated (data : Txt) (st : Vehicle)
    (hs : skipped cv (fullName "INPROP".toList "GR".toList) = false) :
    ∃ e, store rt cv "INPROP".toList "GR".toList data st = .error e := by
  have hfull : fullName "INPROP".toList "GR".toList = "INPROP.GR".toList := by decide
  unfold store
  simp only [hs, Bool.false_eq_true, if_false]
  have hsp : splitIndex rt (fullName "INPROP".toList "GR".toList) = .ok ("INPROP.GR".toList, none) := by
    rw [hfull]; exact splitIndex_plain (by decide)
  cases hu : updateName rt cv.alts (fullName "INPROP".toList "GR".toList) with
  | error e => exact ⟨e, rfl⟩
  | ok r =>
    simp only [bind, Except.bind, hfull, if_true]
    cases reciprocals (readData rt data).2.1 with
    | error e => exact ⟨e, rfl⟩
    | ok _ => exact ⟨.typeError, rfl⟩

theorem guess_no_dot : ∀ g ∈ guessNames, '.' ∉ g := by decide

theorem splitIndex_dot {ns name base : Txt} {ind : Option Int} (h : '(' ∉ ns)
    (hs : splitIndex rt (fullName ns name) = .ok (base, ind)) : '.' ∈ base ∧ (ns ++ ['.']) <+: base := by
  have key : (ns ++ ['.']) <+: base := by
    unfold splitIndex at hs
    split at hs
    · dsimp only at hs
      split at hs
      · cases hs
      · cases hs
        have hne := splitChar_ne_nil '(' name
        rcases hp : splitChar '(' name with _ | ⟨h0, t⟩
        · exact absurd hp hne
        · have := splitChar_append '(' (ns ++ ['.']) (by simp [h]) name h0 t hp
          have e : fullName ns name = ns ++ ['.'] ++ name := by simp [fullName]
          rw [e, this]
          exact ⟨h0, by simp⟩
    · cases hs
      exact ⟨name, by simp [fullName]⟩
  exact ⟨key.subset (by simp), key⟩

/-- The initial guesses are never filled: no name that reaches the storing loop is the name of a guess. -/
theorem guesses_never_set_violated {ns name data : Txt} {st st' : Vehicle} (hns : '(' ∉ ns)
    (hk : ∀ p ∈ cv.alts, p.1 ∉ guessNames) (h : store rt cv ns name data st = .ok st') : st'.guesses = st.guesses := by
  unfold store at h
  dsimp only at h
  split at h
  · cases h; rfl
  · cases hs : splitIndex rt (fullName ns name) with
    | error e =>
      have : updateName rt cv.alts (fullName ns name) = .error e := by
        unfold updateName; rw [hs]; rfl
      rw [this] at h; cases h
    | ok b =>
      obtain ⟨base, ind0⟩ := b
      cases hu : updateName rt cv.alts (fullName ns name) with
      | error e => rw [hu] at h; cases h
      | ok r =>
        obtain ⟨names, ind⟩ := r
        have hn : ∀ n ∈ names, n ∉ guessNames := by
          intro n hn
          rcases updateName_sound hs hu hn with ⟨as, h1, -⟩ | ⟨-, h1⟩
          · exact hk _ h1
          · intro hg
            exact guess_no_dot n hg (h1 ▸ (splitIndex_dot hns hs).1)
        rw [hu] at h
        simp only [bind, Except.bind] at h
        split at h
        · split at h <;> cases h
        · split at h
          · cases h
          · rename_i r hr
            cases h
            clear hu hs
            revert hr
            generalize hst : (st, (readData rt data).2.2) = s0
            have hs0 : s0.1.guesses = st.guesses := by rw [← hst]
            rw [← hs0]; clear hst hs0
            induction names generalizing s0 with
            | nil => intro hr; cases hr; rfl
            | cons n names ih =>
              intro hr
              rw [List.foldlM_cons] at hr
              have h1 : ¬ ((readData rt data).1 = false ∧ n ∈ guessNames ∧ cv.gasp = true) :=
                fun hh => hn n (by simp) hh.2.1
              unfold storeName at hr
              rw [if_neg h1] at hr
              simp only [bind, Except.bind] at hr
              have ih' := fun s1 => ih (fun x hx => hn x (List.mem_cons_of_mem _ hx)) s1
              split at hr
              · cases hr
              · rename_i s1 hs1
                have e1 := ih' s1 hr
                rw [e1]
                split at hs1
                · split at hs1
                  · cases hs1
                  · cases hs1; rfl
                · split at hs1
                  · cases hs1
                  · cases hs1; rfl

/-- An Aviary name written outside the namelists, as the documentation allows, is not recognised: the name gets a
leading dot, so its value ends among the unused ones. -/
theorem aviary_name_violated {name data : Txt} {st st' : Vehicle} (hp : '(' ∉ name) (hc : ':' ∈ name)
    (ha : ∀ k as, (k, some as) ∈ cv.alts → ∀ a ∈ as, ':' ∉ lower a) (hmd : ∀ k, cv.md.has ('.' :: k) = false)
    (hsk : skipped cv ('.' :: name) = false) (h : store rt cv [] name data st = .ok st') :
    st'.input = st.input ∧ st'.guesses = st.guesses ∧ (st'.unused.get? ('.' :: name)).isSome := by
  have hp' : '(' ∉ fullName [] name := by simp [fullName, hp]
  have hs : splitIndex rt (fullName [] name) = .ok (fullName [] name, none) := splitIndex_plain hp'
  have hu : updateName rt cv.alts (fullName [] name) = .ok ([fullName [] name], none) := by
    have hnil : (matchAll (fullName [] name) cv.alts ([], none)).1 = [] := by
      rw [List.eq_nil_iff_forall_not_mem]
      intro k hk
      rcases matchAll_sound _ _ _ k hk with h | ⟨as, h1, a, h2, h3 | ⟨i, h3, -⟩⟩
      · simp at h
      · refine ha k as h1 a h2 ((endsWith_suffix.1 h3).subset ?_)
        simp only [lower, fullName, List.mem_map]
        exact ⟨':', by simp [hc], by decide⟩
      · cases h3
    have hind : ∀ (l : List (Txt × Option (List Txt))) (acc : List Txt), (matchAll (fullName [] name) l (acc, none)).2 = none := by
      intro l
      induction l with
      | nil => intro acc; rfl
      | cons p l ih =>
        intro acc
        rcases p with ⟨key, _ | as⟩
        · exact ih acc
        · rw [matchAll]
          have : (matchAlts (fullName [] name) key as (acc, none)).2 = none := by
            rcases matchAlts_ind (fullName [] name) key as acc none with e | e <;> exact e
          rw [show matchAlts (fullName [] name) key as (acc, none) =
            ((matchAlts (fullName [] name) key as (acc, none)).1, none) from Prod.ext rfl this]
          exact ih _
    unfold updateName
    rw [hs]
    simp only [bind, Except.bind]
    have : matchAll (fullName [] name) cv.alts ([], none) = ([], none) := Prod.ext hnil (hind _ _)
    rw [this]
  have hgr : fullName [] name ≠ "INPROP.GR".toList := by
    intro e
    simp [fullName] at e
  unfold store at h
  have hsk' : skipped cv (fullName [] name) = false := hsk
  simp only [hsk', Bool.false_eq_true, if_false, hu, bind, Except.bind, if_neg hgr, List.foldlM_cons, List.foldlM_nil,
    Option.map_none, pure, Except.pure] at h
  have h1 : fullName [] name ∉ guessNames := fun hg => guess_no_dot _ hg (by simp [fullName])
  unfold storeName at h
  have h2 : cv.md.has (fullName [] name) = false := hmd name
  simp only [h1, false_and, and_false, if_false, h2, Bool.false_eq_true] at h
  cases hv : setValue cv.md (fullName [] name) (readData rt data).2.1 (readData rt data).2.2 st.unused none with
  | error e => rw [hv] at h; cases h
  | ok d =>
    rw [hv] at h
    cases h
    obtain ⟨v, -, h4, -⟩ := setValue_ok hv
    refine ⟨rfl, rfl, ?_⟩
    show (d.get? (fullName [] name)).isSome
    rw [h4]; rfl

/-! ## Examples -/

/-- Text functions for the examples: digits only. -/
def exampleRT : TxtRT where
  pyInt s := if s = "2".toList then some 2 else if s = "7".toList then some 7 else none
  pyFloat _ := none
  validUnits s := decide (s = "km".toList)

/-- Two Aviary variables with legacy names. -/
def exampleConv : Conv where
  gasp := true
  md := [("aircraft:design:range".toList, "NM"), ("aircraft:strut:mass".toList, "lbm")]
  alts := [("aircraft:design:range".toList, some ["INGASP.ARNGE".toList]), ("aircraft:strut:mass".toList, none)]
  defaults := [("INGASP.ARNGE(1)".toList, "NM")]
  deprecated := []

/-- `ARNGE(2) = 7, km` in namelist `INGASP`. -/
example : (store exampleRT exampleConv "INGASP".toList "ARNGE(2)".toList "7,km".toList ⟨[], [], []⟩) =
    .ok ⟨[("aircraft:design:range".toList, ([.none, .int 7], "NM"))], [], []⟩ := by rfl

/-- `aircraft:design:range = 7` outside. -/
example : (store exampleRT exampleConv [] "aircraft:design:range".toList "7".toList ⟨[], [], []⟩) =
    .ok ⟨[], [(".aircraft:design:range".toList, ([.int 7], "unitless"))], []⟩ := by rfl

example : updateName exampleRT exampleConv.alts (fullName "INGASP".toList "arnge(2)".toList) =
    .ok (["aircraft:design:range".toList], some 2) := by rfl

end Verif.Fortran
