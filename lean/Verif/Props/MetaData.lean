import Verif.Model.MetaData
import Verif.Lemmas.Dict
import Mathlib.Tactic.NormNum
import Mathlib.Data.List.Perm.Basic
import Mathlib.Tactic.Tauto

/-! # C07, C09: metadata merging and registration -/

namespace Verif

section
variable {κ M : Type} [DecidableEq κ]

theorem Dict.get?_append (d e : Dict κ M) (k : κ) :
    Dict.get? (d ++ e) k = (Dict.get? d k).orElse (fun _ => Dict.get? e k) := by
  induction d with
  | nil => simp
  | cons p d ih =>
    obtain ⟨a, b⟩ := p
    by_cases h : a = k <;> simp [Dict.get?, h, ih]

theorem Dict.get?_filter_key (d : Dict κ M) (f : κ → Bool) (k : κ) :
    Dict.get? (d.filter (fun p => f p.1)) k = if f k then Dict.get? d k else none := by
  induction d with
  | nil => simp
  | cons p d ih =>
    obtain ⟨a, b⟩ := p
    by_cases hf : f a = true
    · rw [List.filter_cons_of_pos (by simpa using hf)]
      by_cases h : a = k
      · subst h; simp [Dict.get?, hf]
      · simp [Dict.get?, h, ih]
    · rw [List.filter_cons_of_neg (by simpa using hf)]
      by_cases h : a = k
      · subst h; simp [ih, hf]
      · simp [Dict.get?, h, ih]

/-- Two-way merge, read as maps. -/
theorem merge2_get (ae : M → M → Bool) (d1 d2 m : Dict κ M) (h : merge2 ae d1 d2 = .ok m) (k : κ) :
    Dict.get? m k = (Dict.get? d1 k).orElse (fun _ => Dict.get? d2 k) := by
  unfold merge2 at h
  simp only at h
  split at h
  · cases h
    rw [Dict.get?_append, Dict.get?_append,
      Dict.get?_filter_key d1 (fun k => Dict.has d2 k) k,
      Dict.get?_filter_key d1 (fun k => !Dict.has d2 k) k,
      Dict.get?_filter_key d2 (fun k => !Dict.has d1 k) k]
    cases h1 : Dict.get? d1 k <;> cases h2 : Dict.get? d2 k <;> simp [Dict.has, h1, h2]
  · cases h

theorem merge2_ok_iff (ae : M → M → Bool) (d1 d2 : Dict κ M) (hn : (Dict.keys d1).Nodup) :
    (∃ m, merge2 ae d1 d2 = .ok m) ↔
      ∀ k v w, Dict.get? d1 k = some v → Dict.get? d2 k = some w → ae v w = true := by
  unfold merge2
  simp only
  constructor
  · rintro ⟨m, h⟩ k v w hv hw
    split at h
    · rename_i hall
      have hm : (k, v) ∈ d1.filter (fun p => Dict.has d2 p.1) :=
        List.mem_filter.2 ⟨Dict.mem_of_get? d1 hv, by simp [Dict.has, hw]⟩
      have := List.all_eq_true.1 hall _ hm
      simpa [hw] using this
    · cases h
  · intro h
    rw [if_pos]
    · exact ⟨_, rfl⟩
    · rw [List.all_eq_true]
      rintro ⟨k, v⟩ hp
      have hv := Dict.get?_of_mem d1 hn (List.mem_filter.1 hp).1
      cases hw : Dict.get? d2 k with
      | none => simp
      | some w => simpa using h k v w hv hw

theorem merge2_nodup (ae : M → M → Bool) (d1 d2 m : Dict κ M) (h1 : (Dict.keys d1).Nodup)
    (h2 : (Dict.keys d2).Nodup) (h : merge2 ae d1 d2 = .ok m) : (Dict.keys m).Nodup := by
  unfold merge2 at h
  simp only at h
  split at h
  · cases h
    have s1 : ∀ f : κ × M → Bool, ((d1.filter f).map Prod.fst).Nodup :=
      fun f => (List.filter_sublist.map _).nodup h1
    have s2 : ∀ f : κ × M → Bool, ((d2.filter f).map Prod.fst).Nodup :=
      fun f => (List.filter_sublist.map _).nodup h2
    unfold Dict.keys
    rw [List.map_append, List.map_append, List.nodup_append, List.nodup_append]
    refine ⟨s1 _, ⟨s1 _, s2 _, ?_⟩, ?_⟩
    · intro a ha b hb e
      subst e
      obtain ⟨⟨a', v⟩, hp, rfl⟩ := List.mem_map.1 ha
      obtain ⟨⟨b', w⟩, hq, hb'⟩ := List.mem_map.1 hb
      simp only at hb'; subst hb'
      have := (List.mem_filter.1 hq).2
      simp only [Dict.has, Bool.not_eq_true', ← Bool.not_eq_true, Dict.get?_isSome_iff] at this
      exact this (List.mem_map.2 ⟨_, (List.mem_filter.1 hp).1, rfl⟩)
    · intro a ha b hb e
      subst e
      obtain ⟨⟨a', v⟩, hp, rfl⟩ := List.mem_map.1 ha
      have hp2 := (List.mem_filter.1 hp).2
      rcases List.mem_append.1 hb with hb | hb
      · obtain ⟨⟨b', w⟩, hq, hb'⟩ := List.mem_map.1 hb
        simp only at hb'; subst hb'
        have := (List.mem_filter.1 hq).2
        simp_all
      · obtain ⟨⟨b', w⟩, hq, hb'⟩ := List.mem_map.1 hb
        simp only at hb'; subst hb'
        have := (List.mem_filter.1 hq).2
        simp only [Dict.has, Bool.not_eq_true', ← Bool.not_eq_true, Dict.get?_isSome_iff] at this
        exact this (List.mem_map.2 ⟨_, (List.mem_filter.1 hp).1, rfl⟩)
  · cases h

/-- The value the first dictionary of the list that has `k` gives to `k`. -/
def firstVal (ds : List (Dict κ M)) (k : κ) : Option M := ds.findSome? (fun d => Dict.get? d k)

theorem foldlM_merge2 (ae : M → M → Bool) (ds : List (Dict κ M)) :
    ∀ (d : Dict κ M), (Dict.keys d).Nodup → (∀ e ∈ ds, (Dict.keys e).Nodup) →
      (∀ m, ds.foldlM (merge2 ae) d = .ok m → ∀ k, Dict.get? m k = firstVal (d :: ds) k) ∧
      ((∃ m, ds.foldlM (merge2 ae) d = .ok m) ↔
        ∀ (pre : List (Dict κ M)) (e : Dict κ M) (post : List (Dict κ M)), ds = pre ++ e :: post →
          ∀ k v w, firstVal (d :: pre) k = some v → Dict.get? e k = some w → ae v w = true) := by
  induction ds with
  | nil =>
    intro d hd _
    refine ⟨?_, ?_⟩
    · intro m h k
      simp [pure, Except.pure] at h; subst h
      simp [firstVal]
    · constructor
      · intro _ pre e post h; simp at h
      · intro _; exact ⟨d, rfl⟩
  | cons e ds ih =>
    intro d hd hds
    have he := hds e List.mem_cons_self
    have hds' : ∀ x ∈ ds, (Dict.keys x).Nodup := fun x hx => hds x (List.mem_cons_of_mem _ hx)
    cases hm : merge2 ae d e with
    | error err =>
      refine ⟨?_, ?_⟩
      · intro m h; simp [List.foldlM_cons, hm, bind, Except.bind] at h
      · constructor
        · rintro ⟨m, h⟩; simp [List.foldlM_cons, hm, bind, Except.bind] at h
        · intro h
          exfalso
          have : ∃ m, merge2 ae d e = .ok m := by
            rw [merge2_ok_iff ae d e hd]
            intro k v w hv hw
            exact h [] e ds rfl k v w (by simp [firstVal, hv]) hw
          obtain ⟨m, h2⟩ := this
          rw [hm] at h2; cases h2
    | ok d' =>
      have hd' := merge2_nodup ae d e d' hd he hm
      obtain ⟨i1, i2⟩ := ih d' hd' hds'
      have hfv : ∀ l k, firstVal (d' :: l) k = firstVal (d :: e :: l) k := by
        intro l k
        have := merge2_get ae d e d' hm k
        simp only [firstVal, List.findSome?_cons, this]
        cases Dict.get? d k <;> simp
      have hf : (e :: ds).foldlM (merge2 ae) d = ds.foldlM (merge2 ae) d' := by
        simp [List.foldlM_cons, hm, bind, Except.bind]
      rw [hf]
      refine ⟨?_, ?_⟩
      · intro m h k; rw [i1 m h k, hfv]
      · rw [i2]
        constructor
        · intro h pre x post hp k v w hv hw
          cases pre with
          | nil =>
            simp at hp; obtain ⟨rfl, rfl⟩ := hp
            have h3 : firstVal [d] k = Dict.get? d k := by
              simp [firstVal]
            rw [h3] at hv
            exact (merge2_ok_iff ae d e hd).1 ⟨d', hm⟩ k v w hv hw
          | cons y pre =>
            simp at hp; obtain ⟨rfl, rfl⟩ := hp
            exact h pre x post rfl k v w (by rw [hfv]; exact hv) hw
        · rintro h pre x post rfl k v w hv hw
          exact h (e :: pre) x post rfl k v w (by rw [← hfv]; exact hv) hw

/-- **C07 (content).** A successful merge of any number of metadata dictionaries gives each key the metadata of
the first dictionary that has it; in particular its key set is the union, nothing is lost and nothing is
invented. -/
theorem mergeAll_content (ae : M → M → Bool) (ds : List (Dict κ M)) (m : Dict κ M)
    (hn : ∀ d ∈ ds, (Dict.keys d).Nodup) (h : mergeAll ae ds = .ok m) :
    (∀ k, Dict.get? m k = firstVal ds k) ∧ (∀ k, k ∈ Dict.keys m ↔ ∃ d ∈ ds, k ∈ Dict.keys d) := by
  have h1 : ∀ k, Dict.get? m k = firstVal ds k := by
    cases ds with
    | nil => simp [mergeAll] at h
    | cons d ds =>
      intro k
      rw [(foldlM_merge2 ae (d :: ds) d (hn d List.mem_cons_self) hn).1 m h k]
      simp only [firstVal, List.findSome?_cons]
      cases Dict.get? d k <;> simp
  refine ⟨h1, ?_⟩
  intro k
  rw [← Dict.get?_isSome_iff, h1 k]
  unfold firstVal
  rw [List.findSome?_isSome_iff]
  constructor
  · rintro ⟨d, hd, hs⟩; exact ⟨d, hd, (Dict.get?_isSome_iff d k).1 hs⟩
  · rintro ⟨d, hd, hs⟩; exact ⟨d, hd, (Dict.get?_isSome_iff d k).2 hs⟩

/-- **C07 (conflict detection).** The merge succeeds exactly when every dictionary `e` of the list agrees (in the
sense of the comparison function, applied to first-seen value and new value) with the value recorded so far for
each of its keys; otherwise it raises `ValueError`. -/
theorem mergeAll_ok_iff (ae : M → M → Bool) (d : Dict κ M) (ds : List (Dict κ M))
    (hn : ∀ e ∈ d :: ds, (Dict.keys e).Nodup) :
    ((∃ m, mergeAll ae (d :: ds) = .ok m) ↔
      ∀ pre e post, d :: ds = pre ++ e :: post → ∀ k v w, firstVal (d :: pre) k = some v →
        Dict.get? e k = some w → ae v w = true) ∧
    (∀ err, mergeAll ae (d :: ds) = .error err → err = .valueError) := by
  refine ⟨(foldlM_merge2 ae (d :: ds) d (hn d List.mem_cons_self) hn).2, ?_⟩
  intro err
  show (d :: ds).foldlM (merge2 ae) d = .error err → _
  clear hn
  generalize d :: ds = l
  induction l generalizing d with
  | nil => intro h; simp [pure, Except.pure] at h
  | cons e l ih =>
    intro h
    rw [List.foldlM_cons] at h
    cases hm : merge2 ae d e with
    | error e' =>
      simp only [hm, bind, Except.bind, Except.error.injEq] at h
      subst h
      simp only [merge2] at hm
      split at hm
      · cases hm
      · cases hm; rfl
    | ok d' => simp only [hm, bind, Except.bind] at h; exact ih d' h

/-- All dictionaries that have a key give it the same metadata. -/
def Agree (ds : List (Dict κ M)) : Prop :=
  ∀ d ∈ ds, ∀ e ∈ ds, ∀ k v w, Dict.get? d k = some v → Dict.get? e k = some w → v = w

theorem firstVal_some_iff (ds : List (Dict κ M)) (ha : Agree ds) (k : κ) (v : M) :
    firstVal ds k = some v ↔ ∃ d ∈ ds, Dict.get? d k = some v := by
  unfold firstVal
  constructor
  · intro h; exact List.exists_of_findSome?_eq_some h
  · rintro ⟨d, hd, hv⟩
    have hs : (ds.findSome? (fun d => Dict.get? d k)).isSome := by
      rw [List.findSome?_isSome_iff]; exact ⟨d, hd, by simp [hv]⟩
    obtain ⟨w, hw⟩ := Option.isSome_iff_exists.1 hs
    obtain ⟨e, he, hew⟩ := List.exists_of_findSome?_eq_some hw
    rw [hw, ha e he d hd k w v hew hv]

/-- **C07 (exact comparison).** When the comparison is exact, merging succeeds if and only if the dictionaries
agree on common keys, then agrees with every input on that input's keys, and the result, as a map, does not
depend on the order of the inputs. -/
theorem mergeAll_exact [DecidableEq M] (ds es : List (Dict κ M)) (hne : ds ≠ [])
    (hn : ∀ d ∈ ds, (Dict.keys d).Nodup) (hp : ds.Perm es) :
    ((∃ m, mergeAll (fun a b : M => decide (a = b)) ds = .ok m) ↔ Agree ds) ∧
    (∀ m, mergeAll (fun a b : M => decide (a = b)) ds = .ok m →
      (∀ d ∈ ds, ∀ k v, Dict.get? d k = some v → Dict.get? m k = some v) ∧
      ∃ m', mergeAll (fun a b : M => decide (a = b)) es = .ok m' ∧ ∀ k, Dict.get? m' k = Dict.get? m k) := by
  have iff1 : ∀ ds : List (Dict κ M), ds ≠ [] → (∀ d ∈ ds, (Dict.keys d).Nodup) →
      ((∃ m, mergeAll (fun a b : M => decide (a = b)) ds = .ok m) ↔ Agree ds) := by
    intro ds hne hn
    cases ds with
    | nil => exact absurd rfl hne
    | cons d ds =>
      unfold mergeAll
      rw [(foldlM_merge2 _ (d :: ds) d (hn d List.mem_cons_self) hn).2]
      constructor
      · intro h
        have key : ∀ e ∈ d :: ds, ∀ k w, Dict.get? e k = some w → firstVal (d :: ds) k = some w := by
          intro e he k w hw
          obtain ⟨pre, post, hpp⟩ := List.append_of_mem he
          have hfs : (firstVal (d :: ds) k).isSome := by
            unfold firstVal; rw [List.findSome?_isSome_iff]; exact ⟨e, he, by simp [hw]⟩
          obtain ⟨v, hv⟩ := Option.isSome_iff_exists.1 hfs
          by_cases hpre : ∃ v', firstVal (d :: pre) k = some v'
          · obtain ⟨v', hv'⟩ := hpre
            have := h pre e post hpp k v' w hv' hw
            simp at this; subst this
            have : firstVal (d :: ds) k = firstVal (d :: pre) k := by
              cases pre with
              | nil =>
                simp at hpp; obtain ⟨rfl, rfl⟩ := hpp
                simp [firstVal, hw]
              | cons y pre =>
                simp at hpp; obtain ⟨rfl, rfl⟩ := hpp
                simp only [firstVal, List.findSome?_cons, List.findSome?_append] at hv' ⊢
                cases hg : Dict.get? d k with
                | some z => simp
                | none => simp [hg] at hv'; simp [hv']
            rw [this, hv']
          · have hpre' : firstVal (d :: pre) k = none := by
              cases hq : firstVal (d :: pre) k with
              | none => rfl
              | some v' => exact absurd ⟨v', hq⟩ hpre
            rw [hpp]
            cases pre with
            | nil =>
              simp at hpp; obtain ⟨rfl, rfl⟩ := hpp
              simp [firstVal, hw]
            | cons y pre =>
              simp at hpp; obtain ⟨rfl, rfl⟩ := hpp
              simp only [firstVal, List.findSome?_cons, List.cons_append, List.findSome?_append] at hpre' ⊢
              cases hg : Dict.get? d k with
              | some z => simp [hg] at hpre'
              | none =>
                have hz : List.findSome? (fun d => Dict.get? d k) pre = none := by simpa [hg] using hpre'
                simp [hw, hz]
        intro a ha b hb k v w hv hw
        have h1 := key a ha k v hv
        have h2 := key b hb k w hw
        rw [h1] at h2; exact Option.some.inj h2
      · intro ha pre e post hpp k v w hv hw
        obtain ⟨d', hd', hdv⟩ := List.exists_of_findSome?_eq_some hv
        have hmem : d' ∈ d :: ds := by
          rcases List.mem_cons.1 hd' with rfl | h
          · exact List.mem_cons_self
          · rw [hpp]; simp [h]
        simpa using ha d' hmem e (by rw [hpp]; simp) k v w hdv hw
  refine ⟨iff1 ds hne hn, ?_⟩
  intro m hm
  have hag := (iff1 ds hne hn).1 ⟨m, hm⟩
  have hc := (mergeAll_content _ ds m hn hm).1
  refine ⟨?_, ?_⟩
  · intro d hd k v hv
    rw [hc k, firstVal_some_iff ds hag]; exact ⟨d, hd, hv⟩
  · have hne' : es ≠ [] := by
      rintro rfl; exact hne (List.perm_nil.1 hp)
    have hn' : ∀ d ∈ es, (Dict.keys d).Nodup := fun d hd => hn d (hp.mem_iff.2 hd)
    have hag' : Agree es := fun a ha b hb => hag a (hp.mem_iff.2 ha) b (hp.mem_iff.2 hb)
    obtain ⟨m', hm'⟩ := (iff1 es hne' hn').2 hag'
    refine ⟨m', hm', ?_⟩
    intro k
    rw [(mergeAll_content _ es m' hn' hm').1 k, hc k]
    apply Option.ext
    intro v
    rw [firstVal_some_iff es hag', firstVal_some_iff ds hag]
    exact ⟨fun ⟨d, hd, h⟩ => ⟨d, hp.mem_iff.2 hd, h⟩, fun ⟨d, hd, h⟩ => ⟨d, hp.mem_iff.1 hd, h⟩⟩

end

example : ∃ m, mergeAll (fun a b : Nat => decide (a = b)) [[("a", 1)], [("b", 2), ("a", 1)]] = .ok m ∧
    Dict.get? m "b" = some 2 := by
  refine ⟨[("a", 1), ("b", 2)], rfl, rfl⟩

theorem almostEqAll_iff (xs ys : List (String × MVal)) :
    almostEqAll xs ys = true ↔ ∀ p ∈ xs, ∃ w, Dict.get? ys p.1 = some w ∧ almostEq p.2 w = true := by
  induction xs with
  | nil => simp [almostEqAll]
  | cons p xs ih =>
    obtain ⟨k, v⟩ := p
    rw [almostEqAll, Bool.and_eq_true, ih]
    cases h : Dict.get? ys k <;> simp [h]

/-- **C07 (what counts as a conflict).** `almost_equal` compares numbers with a relative tolerance of 10⁻⁸ when
both are floats and exactly otherwise, text exactly, and dictionaries by key set and then entry by entry; values
of different kinds never agree. -/
theorem almostEq_spec :
    (∀ a b : Rat, almostEq (.num a) (.num b) = true ↔ |a - b| ≤ |b| / 10 ^ 8) ∧
    (∀ (a : Rat) (i : Int), (almostEq (.num a) (.int i) = true ↔ a = i) ∧
      (almostEq (.int i) (.num a) = true ↔ a = i)) ∧
    (∀ i j : Int, almostEq (.int i) (.int j) = true ↔ i = j) ∧
    (∀ s t : String, almostEq (.other s) (.other t) = true ↔ s = t) ∧
    (∀ xs ys : List (String × MVal), almostEq (.dict xs) (.dict ys) = true ↔
      (∀ k, k ∈ Dict.keys xs ↔ k ∈ Dict.keys ys) ∧
      ∀ k v, (k, v) ∈ xs → ∃ w, Dict.get? ys k = some w ∧ almostEq v w = true) ∧
    (∀ (xs : List (String × MVal)) (q : Rat) (i : Int) (s : String),
      almostEq (.dict xs) (.num q) = false ∧ almostEq (.dict xs) (.int i) = false ∧
      almostEq (.dict xs) (.other s) = false ∧ almostEq (.num q) (.dict xs) = false ∧
      almostEq (.int i) (.dict xs) = false ∧ almostEq (.other s) (.dict xs) = false ∧
      almostEq (.other s) (.num q) = false ∧ almostEq (.num q) (.other s) = false ∧
      almostEq (.other s) (.int i) = false ∧ almostEq (.int i) (.other s) = false) := by
  refine ⟨?_, ?_, ?_, ?_, ?_, ?_⟩
  · intro a b
    simp only [almostEq, isClose, decide_eq_true_eq]
    rw [show (1 / 100000000 : Rat) * |b| = |b| / 10 ^ 8 by norm_num [div_eq_mul_inv, mul_comm]]
  · intro a i
    simp [almostEq, eq_comm]
  · intro i j; simp [almostEq]
  · intro s t; simp [almostEq]
  · intro xs ys
    rw [almostEq, Bool.and_eq_true, almostEqAll_iff]
    apply and_congr
    · simp only [sameKeys, Bool.and_eq_true, List.all_eq_true, decide_eq_true_eq, Dict.keys]
      exact ⟨fun h k => ⟨h.1 k, h.2 k⟩, fun h => ⟨fun k => (h k).1, fun k => (h k).2⟩⟩
    · exact ⟨fun h k v hm => h (k, v) hm, fun h p hm => h p.1 p.2 hm⟩
  · intro xs q i s
    simp [almostEq]

example : almostEq (.dict [("units", .other "ft"), ("default_value", .num 1)])
    (.dict [("units", .other "m"), ("default_value", .num 1)]) = false := by
  simp [almostEq, almostEqAll, sameKeys, Dict.get?]

/-- **C07 violated (agreement and order).** With the tolerance comparison actually used, two metadata
dictionaries whose default values differ (by less than one part in 10⁸) merge without error in either order,
and the merged default then depends on the order. -/
theorem mergeAll_order_violated :
    ∃ (d e m m' : Dict String MVal) (x y : Rat), x ≠ y ∧
      mergeAll almostEq [d, e] = .ok m ∧ mergeAll almostEq [e, d] = .ok m' ∧
      Dict.get? m "v" = some (.dict [("default_value", .num x)]) ∧
      Dict.get? m' "v" = some (.dict [("default_value", .num y)]) := by
  refine ⟨[("v", .dict [("default_value", .num 1000000000)])],
    [("v", .dict [("default_value", .num 1000000001)])],
    [("v", .dict [("default_value", .num 1000000000)])],
    [("v", .dict [("default_value", .num 1000000001)])], 1000000000, 1000000001, by norm_num, ?_, ?_, rfl, rfl⟩
  · simp [mergeAll, merge2, List.foldlM_cons, bind, Except.bind, Dict.has, Dict.get?, almostEq, almostEqAll,
      sameKeys, isClose, pure, Except.pure]
    norm_num
  · simp [mergeAll, merge2, List.foldlM_cons, bind, Except.bind, Dict.has, Dict.get?, almostEq, almostEqAll,
      sameKeys, isClose, pure, Except.pure]
    norm_num

/-- **C07 violated (chains).** The comparison is not transitive: the same three dictionaries merge in one order
and raise `ValueError` in another. -/
theorem mergeAll_chain_violated :
    ∃ (a b c : Dict String MVal) (m : Dict String MVal),
      mergeAll almostEq [b, a, c] = .ok m ∧ mergeAll almostEq [a, b, c] = .error .valueError := by
  have h1 : almostEq (.num 1000000009) (.num 1000000009) = true := by simp [almostEq, isClose]
  have h2 : almostEq (.num 1000000009) (.num 1000000000) = true := by
    simp [almostEq, isClose]; norm_num
  have h3 : almostEq (.num 1000000009) (.num 1000000018) = true := by
    simp [almostEq, isClose]; norm_num
  have h4 : almostEq (.num 1000000000) (.num 1000000000) = true := by simp [almostEq, isClose]
  have h5 : almostEq (.num 1000000000) (.num 1000000009) = true := by
    simp [almostEq, isClose]; norm_num
  have h6 : almostEq (.num 1000000000) (.num 1000000018) = false := by
    simp [almostEq, isClose]; norm_num
  refine ⟨[("v", .num 1000000000)], [("v", .num 1000000009)], [("v", .num 1000000018)],
    [("v", .num 1000000009)], ?_, ?_⟩
  · simp [mergeAll, merge2, List.foldlM_cons, bind, Except.bind, Dict.has, Dict.get?, h1, h2, h3, pure,
      Except.pure]
  · simp [mergeAll, merge2, List.foldlM_cons, bind, Except.bind, Dict.has, Dict.get?, h4, h5, h6]

/-! ## C09 -/

/-- **C09 (add).** Registering an existing key raises and changes nothing; a new key is appended, all other
entries stay. -/
theorem addMeta_spec (md : Dict String MEntry) (key : String) (a : MArgs) :
    (key ∈ Dict.keys md → addMeta md key a = .error .valueError) ∧
    (key ∉ Dict.keys md → ∃ md', addMeta md key a = .ok md' ∧ Dict.keys md' = Dict.keys md ++ [key] ∧
      Dict.get? md' key = some a.entry ∧ ∀ k, k ≠ key → Dict.get? md' k = Dict.get? md k) := by
  constructor
  · intro h
    have := (Dict.get?_isSome_iff md key).2 h
    simp [addMeta, Dict.has, this]
  · intro h
    have : ¬ (Dict.get? md key).isSome := fun h2 => h ((Dict.get?_isSome_iff md key).1 h2)
    refine ⟨Dict.set md key a.entry, by simp [addMeta, Dict.has, this], ?_, by simp [Dict.get?_set], ?_⟩
    · rw [Dict.keys_set, if_neg h]
    · intro k hk; exact Dict.get?_set_ne _ _ hk.symm

/-- **C09 (update).** Updating a missing key raises; otherwise the key set, its order and every other entry
stay. -/
theorem updateMeta_spec (md : Dict String MEntry) (key : String) (a : MArgs) :
    (key ∉ Dict.keys md → updateMeta md key a = .error .valueError) ∧
    (key ∈ Dict.keys md → ∃ md', updateMeta md key a = .ok md' ∧ Dict.keys md' = Dict.keys md ∧
      Dict.get? md' key = some a.entry ∧ ∀ k, k ≠ key → Dict.get? md' k = Dict.get? md k) := by
  constructor
  · intro h
    have : ¬ (Dict.get? md key).isSome := fun h2 => h ((Dict.get?_isSome_iff md key).1 h2)
    simp [updateMeta, Dict.has, this]
  · intro h
    have := (Dict.get?_isSome_iff md key).2 h
    refine ⟨Dict.set md key a.entry, by simp [updateMeta, addMeta, Dict.has, this], ?_,
      by simp [Dict.get?_set], ?_⟩
    · rw [Dict.keys_set, if_pos h]
    · intro k hk; exact Dict.get?_set_ne _ _ hk.symm

/-- What every registered entry satisfies: it declares a type unless its default is `None`; a default whose
type was inferred as `float` is numeric. -/
def EntryOk (e : MEntry) : Prop := e.types = none → e.default = .none

/-- **C09 (invariant).** After any history of add/update calls on an empty dictionary: no key is registered
twice, every entry declares a type unless its default is `None`, and the entry under a key comes from the
arguments of one of the calls for that key. -/
theorem mrun_invariant (ops : List MOp) :
    let md := ops.foldl mstep []
    (Dict.keys md).Nodup ∧
    ∀ k e, Dict.get? md k = some e → EntryOk e ∧ ∃ o ∈ ops, o.key = k ∧ e = o.args.entry := by
  have ok : ∀ a : MArgs, EntryOk a.entry := by
    intro a h
    simp only [MArgs.entry] at h ⊢
    cases ht : a.types with
    | some t => simp [ht] at h
    | none =>
      simp only [ht] at h
      cases hd : a.default.getD (.numeric 0) with
      | none => rfl
      | numeric q => simp [hd] at h
      | nonNumeric t r => simp [hd] at h
  have gen : ∀ (ops pre : List MOp) (md : Dict String MEntry), (Dict.keys md).Nodup →
      (∀ k e, Dict.get? md k = some e → EntryOk e ∧ ∃ o ∈ pre, o.key = k ∧ e = o.args.entry) →
      (Dict.keys (ops.foldl mstep md)).Nodup ∧
      ∀ k e, Dict.get? (ops.foldl mstep md) k = some e →
        EntryOk e ∧ ∃ o ∈ pre ++ ops, o.key = k ∧ e = o.args.entry := by
    intro ops
    induction ops with
    | nil => intro pre md h1 h2; simpa using ⟨h1, h2⟩
    | cons o ops ih =>
      intro pre md h1 h2
      have hs : mstep md o = md ∨ mstep md o = Dict.set md o.key o.args.entry := by
        cases o with
        | add k a =>
          simp only [mstep, addMeta, MOp.key, MOp.args]
          cases (Dict.has md k && true) <;> simp
        | upd k a =>
          simp only [mstep, updateMeta, addMeta, MOp.key, MOp.args]
          cases Dict.has md k <;> simp
      have := ih (pre ++ [o]) (mstep md o)
        (by rcases hs with h | h <;> rw [h]
            · exact h1
            · exact Dict.nodup_set _ _ _ h1)
        (by
          intro k e he
          rcases hs with h | h <;> rw [h] at he
          · obtain ⟨a1, o', ho, a2⟩ := h2 k e he
            exact ⟨a1, o', List.mem_append_left _ ho, a2⟩
          · rw [Dict.get?_set] at he
            by_cases hk : o.key = k
            · rw [if_pos hk] at he; cases he
              exact ⟨ok _, o, by simp, hk, rfl⟩
            · rw [if_neg hk] at he
              obtain ⟨a1, o', ho, a2⟩ := h2 k e he
              exact ⟨a1, o', List.mem_append_left _ ho, a2⟩)
      simpa using this
  simpa using gen ops [] [] (by simp [Dict.keys]) (by intro k e h; simp at h)

/-- **C09 (units default).** `units=None` and omitted units are both stored as "unitless". -/
theorem entry_units (a : MArgs) :
    (a.units = none ∨ a.units = some none → a.entry.units = "unitless") ∧
    (∀ u, a.units = some (some u) → a.entry.units = u) := by
  refine ⟨?_, ?_⟩
  · rintro (h | h) <;> simp [MArgs.entry, h]
  · intro u h; simp [MArgs.entry, h]

/-- **C09 (recorded entry).** The stored fields are the given arguments; omitted ones are: no description and no
historical names, not an option, one value, default 0.  An omitted type is `float` for a default that
`float()` accepts, the type of the default otherwise, and stays open when the default is `None`. -/
theorem entry_fields (a : MArgs) :
    a.entry.desc = a.desc ∧ a.entry.historical = a.historical ∧
    (a.option = none → a.entry.option = false) ∧ (∀ b, a.option = some b → a.entry.option = b) ∧
    (a.multivalue = none → a.entry.multivalue = false) ∧
    (∀ b, a.multivalue = some b → a.entry.multivalue = b) ∧
    (a.default = none → a.entry.default = .numeric 0) ∧ (∀ d, a.default = some d → a.entry.default = d) ∧
    (∀ t, a.types = some t → a.entry.types = some t) ∧
    (a.types = none → (a.default = none ∨ ∃ q, a.default = some (.numeric q)) →
      a.entry.types = some .float) ∧
    (a.types = none → ∀ t r, a.default = some (.nonNumeric t r) → a.entry.types = some t) ∧
    (a.types = none → a.default = some .none → a.entry.types = none) := by
  refine ⟨rfl, rfl, ?_, ?_, ?_, ?_, ?_, ?_, ?_, ?_, ?_, ?_⟩
  all_goals first
    | (intro h; simp [MArgs.entry, h]; done)
    | (intro b h; simp [MArgs.entry, h]; done)
    | skip
  · rintro h (h2 | ⟨q, h2⟩) <;> simp [MArgs.entry, h, h2]
  · intro h t r h2; simp [MArgs.entry, h, h2]
  · intro h h2; simp [MArgs.entry, h, h2]

/-- **C09 violated.** `update_meta_data(key, md, desc=...)` is not an update of the listed field: it resets the
units, the default value, the types and the other fields to the defaults of `add_meta_data`. -/
theorem updateMeta_resets_violated :
    ∃ (md md' : Dict String MEntry) (e e' : MEntry),
      Dict.get? md "span" = some e ∧ updateMeta md "span" { desc := some "wing span" } = .ok md' ∧
      Dict.get? md' "span" = some e' ∧ e.units = "ft" ∧ e'.units = "unitless" ∧
      e.default = .numeric 100 ∧ e'.default = .numeric 0 ∧ e.multivalue = true ∧ e'.multivalue = false := by
  refine ⟨[("span", { units := some (some "ft"), default := some (.numeric 100), multivalue := some true : MArgs}.entry)],
    _, _, _, rfl, rfl, rfl, rfl, rfl, rfl, rfl, rfl, rfl⟩

example : (∃ md, addMeta [] "x" { units := some none } = .ok md ∧
    (Dict.get? md "x").map (·.units) = some "unitless" ∧ addMeta md "x" {} = .error .valueError) :=
  ⟨_, rfl, rfl, rfl⟩

end Verif
