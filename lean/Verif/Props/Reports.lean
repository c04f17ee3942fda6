import Verif.Model.Reports
import Verif.Lemmas.Dict
import Mathlib.Tactic.NormNum
import Mathlib.Tactic.Ring
import Mathlib.Data.List.TakeWhile
import Mathlib.Algebra.BigOperators.Group.List.Basic

/-!
# Properties of the reports (C133)
-/

namespace Verif.Reports

/-! ### Inputs not given -/

theorem dropWhile_all {α : Type} (q : α → Bool) (l r : List α) (h : ∀ x ∈ l, q x = true) : (l ++ r).dropWhile q = r.dropWhile q := by
  induction l with
  | nil => rfl
  | cons a l ih =>
    rw [List.cons_append, List.dropWhile_cons_of_pos (h a (by simp))]
    exact ih fun x hx => h x (by simp [hx])

/-- Taking off the name of a group takes off every further character of that name, too. -/
theorem lstrip_name (name r : List Char) : lstrip (name ++ ['.']) (name ++ '.' :: r) = lstrip (name ++ ['.']) r := by
  have : name ++ '.' :: r = (name ++ ['.']) ++ r := by simp
  rw [lstrip, this, dropWhile_all]
  · rfl
  · intro x hx
    simpa using hx

/-- So the rest is the name of the variable exactly when its first character is not one of the name of the group. -/
theorem lstrip_eq_iff (name r : List Char) :
    lstrip (name ++ ['.']) (name ++ '.' :: r) = r ↔ ∀ c ∈ r.head?, c ∉ name ++ ['.'] := by
  rw [lstrip_name]
  cases r with
  | nil => simp [lstrip]
  | cons c r =>
    simp only [List.head?_cons, Option.mem_some_iff, forall_eq']
    by_cases h : c ∈ name ++ ['.']
    · simp only [h, not_true_eq_false, iff_false]
      rw [lstrip, List.dropWhile_cons_of_pos (by simpa using h)]
      intro e
      have := (List.dropWhile_sublist (l := r) fun c => (name ++ ['.']).contains c).length_le
      rw [e] at this
      simp at this
    · simp only [h, not_false_iff, iff_true]
      rw [lstrip, List.dropWhile_cons_of_neg (by simpa using h)]

/-- An input is called bare if it is in the inputs of no model, neither by its name nor by what is left of it. -/
theorem bare_iff (multi : Bool) (models : List (List Char × List (List Char))) (ivc : List (List Char)) (v : List Char) :
    v ∈ bare multi models ivc ↔ v ∈ ivc ∧ ∀ m ∈ models, v ∉ m.2 ∧ (multi = true → lstrip (m.1 ++ ['.']) v ∉ m.2) := by
  unfold bare
  induction models generalizing ivc with
  | nil => simp
  | cons m ms ih =>
    rw [List.foldl_cons, ih, List.forall_mem_cons, ← and_assoc]
    refine and_congr_left fun _ => ?_
    unfold bareStep
    cases multi
    · simp
    · simp
      tauto

/-- For one mission the report names the unconnected inputs which were not given. -/
theorem bare_single (name : List Char) (inputs ivc : List (List Char)) (v : List Char) :
    v ∈ bare false [(name, inputs)] ivc ↔ v ∈ ivc ∧ v ∉ inputs := by
  simp [bare_iff]

/-- With several missions an input given to its mission is not reported if its first character is not in the name of the mission. -/
theorem given_partial (models : List (List Char × List (List Char))) (ivc : List (List Char)) (m : List Char × List (List Char)) (hm : m ∈ models)
    (r : List Char) (hr : r ∈ m.2) (hc : ∀ c ∈ r.head?, c ∉ m.1 ++ ['.']) : m.1 ++ '.' :: r ∉ bare true models ivc := by
  intro h
  have := ((bare_iff true models ivc _).mp h).2 m hm
  rw [(lstrip_eq_iff m.1 r).mpr hc] at this
  exact this.2 rfl hr

/-- But it is reported although it was given, for every mission with an `a` in its name and every variable of the aircraft, unless what is left
happens to be given as well. -/
theorem given_violated (name r : List Char) (hn : 'a' ∈ name) (hf : ¬ (name ++ '.' :: 'a' :: r) ∈ [('a' :: r)])
    (ivc : List (List Char)) (hi : name ++ '.' :: 'a' :: r ∈ ivc) : name ++ '.' :: 'a' :: r ∈ bare true [(name, ['a' :: r])] ivc := by
  rw [bare_iff]
  refine ⟨hi, ?_⟩
  simp only [List.mem_singleton, forall_eq]
  refine ⟨fun e => hf (by simp [e]), fun _ e => ?_⟩
  have := (lstrip_eq_iff name ('a' :: r)).mp e 'a' (by simp)
  exact this (by simp [hn])

example : "aircraft1.aircraft:wing:area".toList ∈ bare true [("aircraft1".toList, ["aircraft:wing:area".toList])]
    ["aircraft1.aircraft:wing:area".toList] := by decide +kernel

example : bare true [("g1".toList, ["aircraft:wing:area".toList])] ["g1.aircraft:wing:area".toList] = [] := by decide +kernel

/-- No bare input is in both tables, and those in neither belong to the inside of a trajectory. -/
theorem tables_split (multi : Bool) (models : List (List Char × List (List Char))) (ivc : List (List Char)) (v : List Char)
    (hv : v ∈ bare multi models ivc) :
    ¬ (v ∈ (tables multi models ivc).1 ∧ v ∈ (tables multi models ivc).2) ∧
    (v ∉ (tables multi models ivc).1 → v ∉ (tables multi models ivc).2 → "traj".toList <+: v ∧ ¬ ".rhs_all.".toList <:+: v) := by
  simp only [tables, List.mem_filter, hv, true_and, localRow]
  constructor
  · generalize "traj".toList = a, ".rhs_all.".toList = b
    rintro ⟨h1, h2⟩
    simp [h1] at h2
  · generalize "traj".toList = a, ".rhs_all.".toList = b
    intro h1 h2
    have h1' : hier v = false := by simpa using h1
    simpa [h1'] using h2

/-- Everything in a table is bare. -/
theorem tables_bare (multi : Bool) (models : List (List Char × List (List Char))) (ivc : List (List Char)) (v : List Char)
    (hv : v ∈ (tables multi models ivc).1 ∨ v ∈ (tables multi models ivc).2) : v ∈ bare multi models ivc := by
  simp only [tables, List.mem_filter] at hv
  rcases hv with h | h <;> exact h.1

/-! ### Overrides -/

/-- Paths of external overrides: that of the first output of a variable. -/
theorem overrides_ext (inputs : Dict String ℚ) (os : List Output) (e : Dict String String) (d : List (String × ℚ)) (e' : Dict String String)
    (d' : List (String × ℚ)) (h : overrides inputs os (e, d) = .ok (e', d')) (v : String) :
    e'.get? v = (e.get? v).or ((os.find? fun o => o.ext && o.var == v).map Output.abs) := by
  induction os generalizing e d with
  | nil =>
    simp only [overrides, Except.ok.injEq, Prod.mk.injEq] at h
    rw [h.1]
    simp
  | cons o os ih =>
    unfold overrides at h
    cases hx : o.ext with
    | true =>
      rw [hx, if_pos rfl] at h
      rw [ih _ _ h, List.find?_cons]
      by_cases hv : o.var = v
      · subst hv
        simp only [hx, BEq.rfl, Bool.and_self, Option.map_some]
        by_cases he : e.has o.var = true
        · rw [if_pos he]
          obtain ⟨p, hp⟩ := Option.isSome_iff_exists.mp he
          rw [hp]
          rfl
        · rw [if_neg he, Dict.get?_set_self]
          have hn : e.get? o.var = none := Option.not_isSome_iff_eq_none.mp he
          rw [hn]
          rfl
      · have hb : (o.ext && o.var == v) = false := by simp [hv]
        simp only [hb]
        congr 1
        split_ifs
        · rfl
        · exact Dict.get?_set_ne e o.abs hv
    | false =>
      rw [hx, if_neg (by simp)] at h
      have hb : (o.ext && o.var == v) = false := by simp [hx]
      rw [List.find?_cons]
      simp only [hb]
      cases hd : o.data with
      | false =>
        rw [hd, if_neg (by simp)] at h
        exact ih _ _ h
      | true =>
        rw [hd, if_pos rfl] at h
        cases hi : inputs.get? o.var with
        | none => rw [hi] at h; cases h
        | some x =>
          rw [hi] at h
          exact ih _ _ h

/-- Values of internal overrides: one row for every output overridden by data of the aircraft, in order. -/
theorem overrides_data (inputs : Dict String ℚ) (os : List Output) (e : Dict String String) (d : List (String × ℚ)) (e' : Dict String String)
    (d' : List (String × ℚ)) (h : overrides inputs os (e, d) = .ok (e', d')) :
    d' = d ++ (os.filter fun o => !o.ext && o.data).map fun o => (o.var, (inputs.get? o.var).getD 0) := by
  induction os generalizing e d with
  | nil =>
    simp only [overrides, Except.ok.injEq, Prod.mk.injEq] at h
    simp [h.2]
  | cons o os ih =>
    unfold overrides at h
    cases hx : o.ext with
    | true =>
      rw [hx, if_pos rfl] at h
      rw [ih _ _ h]
      simp [hx]
    | false =>
      rw [hx, if_neg (by simp)] at h
      cases hd : o.data with
      | false =>
        rw [hd, if_neg (by simp)] at h
        rw [ih _ _ h]
        simp [hd]
      | true =>
        rw [hd, if_pos rfl] at h
        cases hi : inputs.get? o.var with
        | none => rw [hi] at h; cases h
        | some x =>
          rw [hi] at h
          rw [ih _ _ h]
          simp [hx, hd, hi]

/-- The report fails exactly for an output overridden by data which are not there. -/
theorem overrides_ok_iff (inputs : Dict String ℚ) (os : List Output) (s : Dict String String × List (String × ℚ)) :
    (∃ r, overrides inputs os s = .ok r) ↔ ∀ o ∈ os, o.ext = false → o.data = true → (inputs.get? o.var).isSome := by
  induction os generalizing s with
  | nil => simp [overrides]
  | cons o os ih =>
    obtain ⟨e, d⟩ := s
    unfold overrides
    rw [List.forall_mem_cons]
    cases hx : o.ext with
    | true => simp [ih]
    | false =>
      cases hd : o.data with
      | false => simp [ih]
      | true =>
        cases hi : inputs.get? o.var with
        | none => simp
        | some x => simp [ih]

example : overrides [("a", 3)] [⟨false, true, "g.a", "a"⟩, ⟨true, false, "x.b", "b"⟩, ⟨true, false, "y.b", "b"⟩] ([], []) =
    .ok ([("b", "x.b")], [("a", 3)]) := by decide +kernel

/-! ### Time series -/

/-- The number of rows of a phase in a column: its values, or empty ones for every time. -/
def rowsOf (p : TPhase) (v : String) : ℕ := match p.vars.get? v with
  | none => p.n
  | some s => s.rows.length

theorem block_length (conv : Option String → String → ℚ → ℚ) (u : Option String) (p : TPhase) (v : String) :
    (block conv u p v).1.length = rowsOf p v := by
  unfold block rowsOf
  cases p.vars.get? v with
  | none => simp
  | some s => cases u <;> simp

/-- A column has the rows of its phases, in order. -/
theorem column_length (conv : Option String → String → ℚ → ℚ) (v : String) (w : Option ℕ) (u : Option String) (ps : List TPhase)
    (r : List (List (Option ℚ)) × Option String) (h : column conv v w u ps = .ok r) : r.1.length = (ps.map fun p => rowsOf p v).sum := by
  induction ps generalizing w u r with
  | nil =>
    simp only [column, Except.ok.injEq] at h
    simp [← h]
  | cons p ps ih =>
    unfold column at h
    dsimp only at h
    split_ifs at h with hw
    cases hc : column conv v (some (block conv u p v).2) (nextUnits u p v) ps with
    | error e => rw [hc] at h; simp [bind, Except.bind] at h
    | ok q =>
      rw [hc] at h
      have e : r = ((block conv u p v).1 ++ q.1, q.2) := by simpa [bind, Except.bind] using h.symm
      rw [e, List.length_append, block_length, ih _ _ _ hc, List.map_cons, List.sum_cons]

/-- The widths of all phases have to agree: a variable with several columns has to be in every phase. -/
theorem column_ok_iff (conv : Option String → String → ℚ → ℚ) (v : String) (w : Option ℕ) (u : Option String) (ps : List TPhase) :
    (∃ r, column conv v w u ps = .ok r) ↔
      ∃ k, (∀ x ∈ w, x = k) ∧ ∀ p ∈ ps, (match p.vars.get? v with | none => 1 | some s => s.width) = k := by
  induction ps generalizing w u with
  | nil => cases w <;> simp [column]
  | cons p ps ih =>
    have hb : (block conv u p v).2 = (match p.vars.get? v with | none => 1 | some s => s.width) := by
      unfold block
      cases p.vars.get? v with
      | none => rfl
      | some s => cases u <;> rfl
    unfold column
    dsimp only
    rw [hb]
    generalize hk : (match p.vars.get? v with | none => 1 | some s => s.width) = k0
    split_ifs with hw
    · have h1 := ih (some k0) (nextUnits u p v)
      constructor
      · rintro ⟨r, hr⟩
        cases hc : column conv v (some k0) (nextUnits u p v) ps with
        | error e => rw [hc] at hr; simp [bind, Except.bind] at hr
        | ok q =>
          obtain ⟨k, h2, h3⟩ := h1.mp ⟨q, hc⟩
          have e : k0 = k := h2 k0 rfl
          subst e
          refine ⟨k0, ?_, ?_⟩
          · rcases hw with rfl | rfl <;> simp
          · rw [List.forall_mem_cons]
            exact ⟨hk, h3⟩
      · rintro ⟨k, h2, h3⟩
        rw [List.forall_mem_cons] at h3
        have e : k0 = k := by rw [← hk]; exact h3.1
        obtain ⟨q, hq⟩ := h1.mpr ⟨k, by simp [e], h3.2⟩
        rw [hq]
        exact ⟨_, rfl⟩
    · simp only [exists_false, false_iff, not_exists, not_and]
      intro k h2 h3
      rw [List.forall_mem_cons] at h3
      have e : k0 = k := by rw [← hk]; exact h3.1
      cases w with
      | none => exact hw (.inl rfl)
      | some x => exact hw (.inr (by rw [h2 x rfl, e]))

/-- Scalars with a value per time fill their columns up to the same length: cells of a line belong together. -/
theorem column_aligned (conv : Option String → String → ℚ → ℚ) (v : String) (w : Option ℕ) (u : Option String) (ps : List TPhase)
    (hs : ∀ p ∈ ps, ∀ s, p.vars.get? v = some s → s.rows.length = p.n ∧ ∀ x ∈ s.rows, x.length = 1)
    (r : List (List (Option ℚ)) × Option String) (h : column conv v w u ps = .ok r) :
    (flat r.1).length = (ps.map TPhase.n).sum := by
  have hall : ∀ x ∈ r.1, x.length = 1 := by
    induction ps generalizing w u r with
    | nil =>
      simp only [column, Except.ok.injEq] at h
      simp [← h]
    | cons p ps ih =>
      unfold column at h
      dsimp only at h
      split_ifs at h with hw
      cases hc : column conv v (some (block conv u p v).2) (nextUnits u p v) ps with
      | error e => rw [hc] at h; simp [bind, Except.bind] at h
      | ok q =>
        rw [hc] at h
        have e : r = ((block conv u p v).1 ++ q.1, q.2) := by simpa [bind, Except.bind] using h.symm
        subst e
        intro x hx
        rcases List.mem_append.mp hx with hx | hx
        · unfold block at hx
          cases hp : p.vars.get? v with
          | none =>
            rw [hp] at hx
            rw [List.eq_of_mem_replicate hx]
            rfl
          | some s =>
            have := (hs p (by simp) s hp).2
            rw [hp] at hx
            cases u with
            | none =>
              obtain ⟨y, hy, rfl⟩ := List.mem_map.mp hx
              simpa using this y hy
            | some u =>
              obtain ⟨y, hy, rfl⟩ := List.mem_map.mp hx
              simpa using this y hy
        · exact ih _ _ (fun p hp => hs p (by simp [hp])) _ hc x hx
  have hl := column_length conv v w u ps r h
  have e : (flat r.1).length = r.1.length := by
    unfold flat
    generalize r.1 = l at hall
    induction l with
    | nil => rfl
    | cons a l ih =>
      rw [List.flatten_cons, List.length_append, List.length_cons, hall a (by simp), ih fun x hx => hall x (by simp [hx])]
      omega
  rw [e, hl]
  congr 1
  refine List.map_congr_left fun p hp => ?_
  unfold rowsOf
  cases hv : p.vars.get? v with
  | none => rfl
  | some s => exact (hs p hp s hv).1

/-- A variable with two columns does not fit to the times. -/
theorem vector_violated (conv : Option String → String → ℚ → ℚ) :
    ∃ p : TPhase, ∃ r, column conv "x" none none [p] = .ok r ∧ (flat r.1).length ≠ p.n :=
  ⟨⟨1, [("x", ⟨[[1, 2]], 2, none⟩)]⟩, _, rfl, by intro h; exact absurd h (by change ¬ (2 = 1); decide)⟩

/-- All values are given in the units of the first phase with the variable, if they all have units. -/
theorem column_units (conv : Option String → String → ℚ → ℚ) (v u : String) (w : Option ℕ) (ps : List TPhase)
    (r : List (List (Option ℚ)) × Option String) (h : column conv v w (some u) ps = .ok r) :
    r.2 = some u ∧ r.1 = ps.flatMap fun p => match p.vars.get? v with
      | none => List.replicate p.n [none]
      | some s => s.rows.map (·.map fun x => some (if s.units = some u then x else conv s.units u x)) := by
  induction ps generalizing w r with
  | nil =>
    simp only [column, Except.ok.injEq] at h
    simp [← h]
  | cons p ps ih =>
    unfold column at h
    dsimp only at h
    split_ifs at h with hw
    cases hc : column conv v (some (block conv (some u) p v).2) (some u) ps with
    | error e => rw [show nextUnits (some u) p v = some u from rfl, hc] at h; simp [bind, Except.bind] at h
    | ok q =>
      rw [show nextUnits (some u) p v = some u from rfl, hc] at h
      have e : r = ((block conv (some u) p v).1 ++ q.1, q.2) := by simpa [bind, Except.bind] using h.symm
      obtain ⟨h1, h2⟩ := ih _ _ hc
      rw [e]
      refine ⟨h1, ?_⟩
      dsimp only
      rw [List.flatMap_cons, ← h2]
      congr 1
      unfold block
      cases p.vars.get? v <;> rfl

/-- A first phase without units spoils the column: its values stay as they are before those in other units. -/
theorem units_violated (conv : Option String → String → ℚ → ℚ) :
    column conv "x" none none [⟨1, [("x", ⟨[[1]], 1, none⟩)]⟩, ⟨1, [("x", ⟨[[2]], 1, some "m"⟩)]⟩] = .ok ([[some 1], [some 2]], some "m") := rfl

/-- The time comes first, and no column is lost or repeated. -/
theorem order_perm (names : List String) (h : names.Nodup) (ht : "time" ∈ names) : (order names).Perm names ∧ (order names).head? = some "time" := by
  refine ⟨?_, rfl⟩
  unfold order
  have h1 : ((names.filter (· ≠ "time")).mergeSort (· ≤ ·)).Perm (names.filter (· ≠ "time")) := List.mergeSort_perm _ _
  refine (h1.cons "time").trans ?_
  have h2 := List.perm_cons_erase ht
  refine (List.Perm.cons "time" ?_).trans h2.symm
  rw [h.erase_eq_filter]
  have : (fun x : String => decide (x ≠ "time")) = fun x => x != "time" := by
    funext x
    simp [bne, beq_eq_decide]
  rw [this]

/-- Equal rows stay, although they are said to be eliminated. -/
theorem duplicates_violated {α : Type} (rows : List α) : dropDuplicates rows = rows := rfl

/-! ### Mission summary -/

/-- Rows of the phases are their own differences. -/
theorem phases_rows (i : Option (ℚ × ℚ)) (t : Option Totals) (ps : List Phase) (r : List Row × Option Totals) (h : phases i t ps = .ok r) :
    r.1 = ps.map diff := by
  induction ps generalizing i t r with
  | nil =>
    simp only [phases, Except.ok.injEq] at h
    simp [← h]
  | cons p ps ih =>
    unfold phases at h
    cases ht : p.time with
    | none => simp [ht] at h
    | some tm =>
      cases hd : p.dist with
      | none => simp [ht, hd] at h
      | some ds =>
        rw [ht, hd] at h
        dsimp only at h
        cases hc : phases (some (i.getD (tm.1, ds.1))) (some ⟨tm.2 - (i.getD (tm.1, ds.1)).1, ds.2 - (i.getD (tm.1, ds.1)).2⟩) ps with
        | error e => rw [hc] at h; simp [bind, Except.bind] at h
        | ok q =>
          rw [hc] at h
          have e : r = (diff p :: q.1, q.2) := by simpa [bind, Except.bind] using h.symm
          rw [e, ih _ _ _ hc]
          rfl

/-- Every phase needs its time and its distance; the mass may be missing. -/
theorem phases_ok_iff (i : Option (ℚ × ℚ)) (t : Option Totals) (ps : List Phase) :
    (∃ r, phases i t ps = .ok r) ↔ ∀ p ∈ ps, p.time.isSome ∧ p.dist.isSome := by
  induction ps generalizing i t with
  | nil => simp [phases]
  | cons p ps ih =>
    unfold phases
    rw [List.forall_mem_cons]
    cases ht : p.time with
    | none => simp
    | some tm =>
      cases hd : p.dist with
      | none => simp
      | some ds =>
        dsimp only
        have := ih (some (i.getD (tm.1, ds.1))) (some ⟨tm.2 - (i.getD (tm.1, ds.1)).1, ds.2 - (i.getD (tm.1, ds.1)).2⟩)
        simp only [Option.isSome_some, and_self, true_and]
        rw [← this]
        cases hc : phases (some (i.getD (tm.1, ds.1))) (some ⟨tm.2 - (i.getD (tm.1, ds.1)).1, ds.2 - (i.getD (tm.1, ds.1)).2⟩) ps with
        | error e => simp [bind, Except.bind]
        | ok q => simp [bind, Except.bind]

/-- The totals of a mission are from the beginning of its first phase to the end of its last. -/
theorem phases_totals (i : Option (ℚ × ℚ)) (t : Option Totals) (ps : List Phase) (p : Phase) (r : List Row × Option Totals)
    (h : phases i t (ps ++ [p]) = .ok r) :
    ∃ tm ds t0 d0, p.time = some tm ∧ p.dist = some ds ∧ r.2 = some ⟨tm.2 - t0, ds.2 - d0⟩ ∧
      (i = some (t0, d0) ∨ (i = none ∧ ∃ e1 e2, (ps ++ [p]).head?.bind Phase.time = some (t0, e1) ∧ (ps ++ [p]).head?.bind Phase.dist = some (d0, e2))) := by
  induction ps generalizing i t r with
  | nil =>
    rw [List.nil_append] at h ⊢
    unfold phases at h
    cases ht : p.time with
    | none => simp [ht] at h
    | some tm =>
      cases hd : p.dist with
      | none => simp [ht, hd] at h
      | some ds =>
        simp only [ht, hd, phases, bind, Except.bind, Except.ok.injEq] at h
        refine ⟨tm, ds, (i.getD (tm.1, ds.1)).1, (i.getD (tm.1, ds.1)).2, rfl, rfl, by rw [← h], ?_⟩
        cases i with
        | none => exact .inr ⟨rfl, tm.2, ds.2, by simp [ht], by simp [hd]⟩
        | some q => exact .inl rfl
  | cons a ps ih =>
    rw [List.cons_append] at h ⊢
    unfold phases at h
    cases ht : a.time with
    | none => simp [ht] at h
    | some tm =>
      cases hd : a.dist with
      | none => simp [ht, hd] at h
      | some ds =>
        rw [ht, hd] at h
        dsimp only at h
        cases hc : phases (some (i.getD (tm.1, ds.1))) (some ⟨tm.2 - (i.getD (tm.1, ds.1)).1, ds.2 - (i.getD (tm.1, ds.1)).2⟩) (ps ++ [p]) with
        | error e => rw [hc] at h; simp [bind, Except.bind] at h
        | ok q =>
          rw [hc] at h
          have e : r = (diff a :: q.1, q.2) := by simpa [bind, Except.bind] using h.symm
          obtain ⟨tm', ds', t0, d0, h1, h2, h3, h4⟩ := ih _ _ _ hc
          refine ⟨tm', ds', t0, d0, h1, h2, by rw [e]; exact h3, ?_⟩
          rcases h4 with h4 | ⟨h4, -⟩
          · cases i with
            | none =>
              have : (tm.1, ds.1) = (t0, d0) := by simpa using h4
              obtain ⟨rfl, rfl⟩ := Prod.mk.inj this
              exact .inr ⟨rfl, tm.2, ds.2, by simp [ht], by simp [hd]⟩
            | some q => exact .inl (by simpa using h4)
          · cases h4

/-- Elapsed times of linked phases add up to the total. -/
theorem elapsed_sum (ps : List (ℚ × ℚ)) (a b : ℚ) (hl : (ps ++ [(a, b)]).IsChain fun x y => x.2 = y.1) :
    ((ps ++ [(a, b)]).map fun x => x.2 - x.1).sum = b - ((ps ++ [(a, b)]).head?.getD (a, b)).1 := by
  induction ps with
  | nil => simp
  | cons x ps ih =>
    rw [List.cons_append] at hl ⊢
    have h1 : (ps ++ [(a, b)]).IsChain fun x y => x.2 = y.1 := by cases ps with
      | nil => exact .singleton _
      | cons y ps => exact (List.isChain_cons_cons.mp hl).2
    rw [List.map_cons, List.sum_cons, ih h1]
    have h2 : x.2 = ((ps ++ [(a, b)]).head?.getD (a, b)).1 := by
      cases ps with
      | nil => simpa using hl
      | cons y ps =>
        rw [List.cons_append, List.isChain_cons_cons] at hl
        simpa using hl.1
    rw [h2]
    simp

/-- A first mission without phases has no totals. -/
theorem summary_empty_violated (ms : List (List Phase)) : summary none ([] :: ms) = .error .unboundLocal := rfl

/-- A later mission without phases shows the totals of the one before. -/
theorem summary_stale_violated (p : Phase) (tm ds : ℚ × ℚ) (h1 : p.time = some tm) (h2 : p.dist = some ds) :
    summary none [[p], []] = .ok [([diff p], ⟨tm.2 - tm.1, ds.2 - ds.1⟩), ([], ⟨tm.2 - tm.1, ds.2 - ds.1⟩)] := by
  simp [summary, phases, h1, h2, bind, Except.bind]

/-- With phases in every mission the totals do not depend on other missions. -/
theorem summary_own (t : Option Totals) (ms : List (List Phase)) (hm : ∀ m ∈ ms, m ≠ []) : summary t ms = summary none ms := by
  cases ms with
  | nil => rfl
  | cons m ms =>
    have : phases none t m = phases none none m := by
      cases m with
      | nil => exact absurd rfl (hm [] (by simp))
      | cons p ps => rfl
    unfold summary
    rw [this]

example : summary none [[⟨some (100, 90), some (0, 10), some (0, 50)⟩, ⟨none, some (10, 30), some (50, 200)⟩]] =
    .ok [([⟨some 10, some 10, some 50⟩, ⟨none, some 20, some 150⟩], ⟨30, 200⟩)] := by decide +kernel

end Verif.Reports
