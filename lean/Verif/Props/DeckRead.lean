import Verif.Model.DeckRead
import Verif.Lemmas.Dict
import Mathlib.Data.List.Sort
import Mathlib.Tactic.Linarith
import Mathlib.Tactic.Tauto

/-!
# C118: reading an engine deck from memory and sorting its points
-/

namespace Verif.DeckRead

open Verif

/-! ## Lexicographic order -/

theorem lexLe_refl : ∀ a : List ℚ, lexLe a a = true
  | [] => rfl
  | a :: as => by unfold lexLe; simp [lexLe_refl as]

theorem lexLe_total : ∀ a b : List ℚ, (lexLe a b || lexLe b a) = true
  | [], b => by unfold lexLe; cases b <;> rfl
  | a :: as, [] => by unfold lexLe; rfl
  | a :: as, b :: bs => by
    have ih := lexLe_total as bs
    unfold lexLe
    rcases lt_trichotomy a b with h | h | h
    · simp [h]
    · subst h; simpa using ih
    · simp [h, not_lt.mpr h.le]

theorem lexLe_cons (a b : ℚ) (as bs : List ℚ) :
    lexLe (a :: as) (b :: bs) = true ↔ a < b ∨ (a = b ∧ lexLe as bs = true) := by
  conv_lhs => unfold lexLe
  rcases lt_trichotomy a b with h | h | h
  · simp [h]
  · subst h; simp
  · simp [h, not_lt.mpr h.le, h.ne']

theorem lexLe_trans : ∀ a b c : List ℚ, a.length = b.length → b.length = c.length →
    lexLe a b = true → lexLe b c = true → lexLe a c = true
  | [], b, c, _, _, _, _ => by unfold lexLe; rfl
  | a :: as, [], c, h, _, _, _ => by cases h
  | a :: as, b :: bs, [], _, h, _, _ => by cases h
  | a :: as, b :: bs, c :: cs, h1, h2, h3, h4 => by
    rw [lexLe_cons] at *
    simp only [List.length_cons, Nat.add_right_cancel_iff] at h1 h2
    rcases h3 with h3 | ⟨rfl, h3⟩ <;> rcases h4 with h4 | ⟨rfl, h4⟩
    · exact .inl (h3.trans h4)
    · exact .inl h3
    · exact .inl h4
    · exact .inr ⟨rfl, lexLe_trans as bs cs h1 h2 h3 h4⟩

/-- Point `x` comes strictly before point `y`: first key, then second, third, fourth. -/
def Before (x y : ℚ × ℚ × ℚ × ℚ) : Prop :=
  x.1 < y.1 ∨ (x.1 = y.1 ∧ (x.2.1 < y.2.1 ∨ (x.2.1 = y.2.1 ∧ (x.2.2.1 < y.2.2.1 ∨ (x.2.2.1 = y.2.2.1 ∧ x.2.2.2 < y.2.2.2)))))

/-- The four keys of a point: Mach number, altitude, throttle and hybrid throttle, or with the first two exchanged. -/
def point (sortAlt : Bool) (cols : Dict EVar (List ℚ)) (i : ℕ) : ℚ × ℚ × ℚ × ℚ :=
  if sortAlt then (entry cols .altitude i, entry cols .mach i, entry cols .throttle i, entry cols .hybridThrottle i)
  else (entry cols .mach i, entry cols .altitude i, entry cols .throttle i, entry cols .hybridThrottle i)

theorem lexLe_four (a b c d a' b' c' d' : ℚ) :
    lexLe [a, b, c, d] [a', b', c', d'] = true ↔ ¬ Before (a', b', c', d') (a, b, c, d) := by
  rw [lexLe_cons, lexLe_cons, lexLe_cons, lexLe_cons]
  unfold Before
  have e : lexLe [] [] = true := by unfold lexLe; rfl
  rw [e]
  dsimp only
  rcases lt_trichotomy a a' with h | h | h
  · simp [h, not_lt.mpr h.le, h.ne']
  · subst h
    rcases lt_trichotomy b b' with h | h | h
    · simp [h, not_lt.mpr h.le, h.ne']
    · subst h
      rcases lt_trichotomy c c' with h | h | h
      · simp [h, not_lt.mpr h.le, h.ne']
      · subst h
        rcases lt_trichotomy d d' with h | h | h
        · simp [h, not_lt.mpr h.le]
        · subst h; simp
        · simp [h, not_lt.mpr h.le, h.ne']
      · simp [h, not_lt.mpr h.le, h.ne']
    · simp [h, not_lt.mpr h.le, h.ne']
  · simp [h, not_lt.mpr h.le, h.ne']

theorem le_iff (b : Bool) (cols : Dict EVar (List ℚ)) (i j : ℕ) :
    lexLe (keyAt b cols i) (keyAt b cols j) = true ↔ ¬ Before (point b cols j) (point b cols i) := by
  cases b
  · exact lexLe_four _ _ _ _ _ _ _ _
  · exact lexLe_four _ _ _ _ _ _ _ _

theorem key_length (b : Bool) (cols : Dict EVar (List ℚ)) (i : ℕ) : (keyAt b cols i).length = 4 := by
  cases b <;> rfl

/-! ## The sorted order -/

theorem order_perm (b : Bool) (cols : Dict EVar (List ℚ)) (n : ℕ) : (order b cols n).Perm (List.range n) :=
  List.mergeSort_perm _ _

theorem order_sorted (b : Bool) (cols : Dict EVar (List ℚ)) (n : ℕ) :
    (order b cols n).Pairwise fun i j => ¬ Before (point b cols j) (point b cols i) := by
  have := List.pairwise_mergeSort (le := fun i j => lexLe (keyAt b cols i) (keyAt b cols j))
    (fun i j k => lexLe_trans _ _ _ (by rw [key_length, key_length]) (by rw [key_length, key_length]))
    (fun i j => lexLe_total _ _) (List.range n)
  exact this.imp fun h => (le_iff b cols _ _).mp h

theorem order_stable (b : Bool) (cols : Dict EVar (List ℚ)) (n : ℕ) :
    (order b cols n).Pairwise fun i j => point b cols i = point b cols j → i < j := by
  have nd : (order b cols n).Nodup := (order_perm b cols n).nodup_iff.mpr List.nodup_range
  rw [List.pairwise_iff_forall_sublist]
  intro i j hij hp
  have hne : i ≠ j := by
    intro h; subst h
    have := hij.nodup nd
    simp at this
  rcases Nat.lt_or_ge i j with h | h
  · exact h
  · exfalso
    have hlt : j < i := lt_of_le_of_ne h (Ne.symm hne)
    have hi : i ∈ List.range n := (order_perm b cols n).mem_iff.mp (hij.subset (by simp))
    have sub : [j, i].Sublist (List.range n) := by
      have h3 : ([j, i] : List ℕ).Pairwise (· < ·) := by simp [hlt]
      have h4 : ∀ x ∈ [j, i], x ∈ List.range n := by
        intro x hx
        simp only [List.mem_cons, List.not_mem_nil, or_false] at hx
        rw [List.mem_range] at *
        rcases hx with rfl | rfl <;> omega
      have nd2 : ([j, i] : List ℕ).Nodup := h3.imp (fun h => Nat.ne_of_lt h)
      exact List.sublist_of_subperm_of_pairwise (List.subperm_of_subset nd2 h4) h3 List.pairwise_lt_range
    have le : lexLe (keyAt b cols j) (keyAt b cols i) = true := by
      rw [le_iff, hp]
      unfold Before
      simp
    have sub2 : [j, i].Sublist (order b cols n) :=
      List.pair_sublist_mergeSort (le := fun i j => lexLe (keyAt b cols i) (keyAt b cols j))
        (fun i j k => lexLe_trans _ _ _ (by rw [key_length, key_length]) (by rw [key_length, key_length]))
        (fun i j => lexLe_total _ _) le sub
    -- both orders in a list without repetition
    have p0 : (order b cols n).Pairwise fun x y => (order b cols n).idxOf x < (order b cols n).idxOf y := by
      rw [List.pairwise_iff_getElem]
      intro a c ha hc hac
      rw [nd.idxOf_getElem a ha, nd.idxOf_getElem c hc]; exact hac
    have h5 := List.pairwise_iff_forall_sublist.mp p0 hij
    have h6 := List.pairwise_iff_forall_sublist.mp p0 sub2
    exact absurd h5 (not_lt.mpr h6.le)

/-- Sorting permutes the points: one permutation for all columns, keys in lexicographic order, equal keys in the old order. -/
theorem sort_spec (b : Bool) (cols : Dict EVar (List ℚ)) (n : ℕ) (hlen : ∀ e ∈ cols, e.2.length = n)
    (hk : ∀ v ∈ sortVars b, Dict.has cols v = true) :
    ∃ σ : List ℕ, σ.Perm (List.range n) ∧
      sortData b cols = .ok (cols.map fun e => (e.1, σ.map fun i => e.2.getD i 0)) ∧
      (σ.Pairwise fun i j => ¬ Before (point b cols j) (point b cols i)) ∧
      (σ.Pairwise fun i j => point b cols i = point b cols j → i < j) := by
  refine ⟨order b cols n, order_perm b cols n, ?_, order_sorted b cols n, order_stable b cols n⟩
  unfold sortData
  match cols, hlen, hk with
  | [], _, hk => cases b <;> exact absurd (hk .mach (by decide)) (by decide)
  | (k, c) :: rest, hlen, hk =>
    have hc : c.length = n := hlen (k, c) (by simp)
    dsimp only
    rw [if_pos, if_pos, hc]
    · exact List.all_eq_true.mpr hk
    · rw [List.all_eq_true]
      intro e he
      exact decide_eq_true ((hlen e he).trans hc.symm)

/-- Every column of the result holds the old entries, in another order. -/
theorem sort_column_perm (b : Bool) (cols out : Dict EVar (List ℚ)) (n : ℕ) (hlen : ∀ e ∈ cols, e.2.length = n)
    (hk : ∀ v ∈ sortVars b, Dict.has cols v = true) (h : sortData b cols = .ok out) :
    List.Forall₂ (fun e f => e.1 = f.1 ∧ f.2.Perm e.2) cols out := by
  obtain ⟨σ, hp, ho, -, -⟩ := sort_spec b cols n hlen hk
  rw [h] at ho
  cases ho
  rw [List.forall₂_map_right_iff]
  refine List.forall₂_same.mpr fun e he => ⟨rfl, ?_⟩
  have := hp.map fun i => e.2.getD i 0
  refine this.trans ?_
  have e2 : (List.range n).map (fun i => e.2.getD i 0) = e.2 := by
    apply List.ext_getElem
    · simp [hlen e he]
    · intro i h1 h2
      simp [List.getD_eq_getElem?_getD, List.getElem?_eq_getElem h2]
  rw [e2]

theorem get?_map (cols : Dict EVar (List ℚ)) (f : List ℚ → List ℚ) (v : EVar) :
    Dict.get? (cols.map fun e => (e.1, f e.2)) v = (Dict.get? cols v).map f := by
  induction cols with
  | nil => rfl
  | cons e rest ih =>
    show (if e.1 = v then some (f e.2) else _) = _
    by_cases h : e.1 = v
    · rw [if_pos h]; unfold Dict.get?; rw [if_pos h]; rfl
    · rw [if_neg h]
      conv_rhs => unfold Dict.get?
      rw [if_neg h]; exact ih

theorem get?_length (cols : Dict EVar (List ℚ)) (n : ℕ) (hlen : ∀ e ∈ cols, e.2.length = n) (v : EVar) (c : List ℚ)
    (h : Dict.get? cols v = some c) : c.length = n := hlen _ (Dict.mem_of_get? cols h)

/-- Sorting sorted data changes nothing. -/
theorem sort_idem (b : Bool) (cols out : Dict EVar (List ℚ)) (n : ℕ) (hlen : ∀ e ∈ cols, e.2.length = n)
    (hk : ∀ v ∈ sortVars b, Dict.has cols v = true) (h : sortData b cols = .ok out) : sortData b out = .ok out := by
  obtain ⟨σ, hp, ho, hs, -⟩ := sort_spec b cols n hlen hk
  rw [h] at ho
  cases ho
  have hσ : σ.length = n := by rw [hp.length_eq, List.length_range]
  have hlen2 : ∀ e ∈ cols.map (fun e => (e.1, σ.map fun i => e.2.getD i 0)), e.2.length = n := by
    intro e he
    obtain ⟨f, -, rfl⟩ := List.mem_map.mp he
    simp [hσ]
  have hk2 : ∀ v ∈ sortVars b, Dict.has (cols.map fun e => (e.1, σ.map fun i => e.2.getD i 0)) v = true := by
    intro v hv
    have := hk v hv
    unfold Dict.has at this ⊢
    rw [get?_map cols (fun c => σ.map fun i => c.getD i 0) v]
    rw [Option.isSome_map]; exact this
  have hent : ∀ v ∈ sortVars b, ∀ i (hi : i < n), entry (cols.map fun e => (e.1, σ.map fun i => e.2.getD i 0)) v i =
      entry cols v (σ[i]'(by rw [hσ]; exact hi)) := by
    intro v hv i hi
    have h3 := hk v hv
    unfold Dict.has at h3
    obtain ⟨c, hc⟩ := Option.isSome_iff_exists.mp h3
    unfold entry
    rw [get?_map cols (fun c => σ.map fun i => c.getD i 0) v, hc]
    simp [List.getD_eq_getElem?_getD, List.getElem?_map, List.getElem?_eq_getElem (show i < σ.length by rw [hσ]; exact hi)]
  have hpt : ∀ i (hi : i < n), point b (cols.map fun e => (e.1, σ.map fun i => e.2.getD i 0)) i =
      point b cols (σ[i]'(by rw [hσ]; exact hi)) := by
    intro i hi
    unfold point
    have q := fun v hv => hent v hv i hi
    cases b
    · simp only [Bool.false_eq_true, if_false]
      rw [q _ (by decide), q _ (by decide), q _ (by decide), q _ (by decide)]
    · simp only [if_true]
      rw [q _ (by decide), q _ (by decide), q _ (by decide), q _ (by decide)]
  have hord : order b (cols.map fun e => (e.1, σ.map fun i => e.2.getD i 0)) n = List.range n := by
    unfold order
    apply List.mergeSort_of_pairwise
    rw [List.pairwise_iff_getElem]
    intro i j hi hj hij
    rw [List.length_range] at hi hj
    rw [List.getElem_range, List.getElem_range, le_iff, hpt i hi, hpt j hj]
    exact List.pairwise_iff_getElem.mp hs i j (by rw [hσ]; exact hi) (by rw [hσ]; exact hj) hij
  have key : sortData b (cols.map fun e => (e.1, σ.map fun i => e.2.getD i 0)) =
      .ok ((cols.map fun e => (e.1, σ.map fun i => e.2.getD i 0)).map fun e =>
        (e.1, (order b (cols.map fun e => (e.1, σ.map fun i => e.2.getD i 0)) n).map fun i => e.2.getD i 0)) := by
    generalize hg : (cols.map fun e => (e.1, σ.map fun i => e.2.getD i 0)) = out at hlen2 hk2
    unfold sortData
    match out, hlen2, hk2 with
    | [], _, hk2 => cases b <;> exact absurd (hk2 .mach (by decide)) (by decide)
    | (k, c) :: rest, hlen2, hk2 =>
      have hc : c.length = n := hlen2 (k, c) (by simp)
      dsimp only
      rw [if_pos, if_pos, hc]
      · exact List.all_eq_true.mpr hk2
      · rw [List.all_eq_true]
        intro e he
        exact decide_eq_true ((hlen2 e he).trans hc.symm)
  rw [key, hord]
  congr 1
  conv_rhs => rw [← List.map_id (cols.map fun e => (e.1, σ.map fun i => e.2.getD i 0))]
  apply List.map_congr_left
  intro e he
  have hl := hlen2 e he
  refine Prod.ext rfl ?_
  apply List.ext_getElem
  · simp [hl]
  · intro i h1 h2
    simp only [id] at h2
    simp [List.getD_eq_getElem?_getD, List.getElem?_eq_getElem h2]

/-- Columns of different lengths are an error. -/
theorem sort_ragged (b : Bool) (cols : Dict EVar (List ℚ)) (e f : EVar × List ℚ) (he : e ∈ cols) (hf : f ∈ cols)
    (h : e.2.length ≠ f.2.length) : sortData b cols = .error .valueError := by
  unfold sortData
  match cols, he, hf with
  | (k, c) :: rest, he, hf =>
    dsimp only
    rw [if_neg]
    rw [List.all_eq_true]
    intro hall
    have h1 := of_decide_eq_true (hall e he)
    have h2 := of_decide_eq_true (hall f hf)
    exact h (h1.trans h2.symm)

/-- Three points of a small deck. -/
def colsEx : Dict EVar (List ℚ) :=
  [(.mach, [1/2, 0, 0]), (.altitude, [0, 10, 0]), (.throttle, [1, 1, 1]), (.hybridThrottle, [0, 0, 0]), (.thrust, [3, 2, 1])]

example : ∃ out, sortData false colsEx = .ok out ∧ sortData false out = .ok out := by
  obtain ⟨σ, -, h, -⟩ := sort_spec false colsEx 3 (by decide) (by decide)
  exact ⟨_, h, sort_idem false colsEx _ 3 (by decide) (by decide) h⟩

/-! ## Reading from memory -/

/-- The entry of the table that provides variable `v`: the last one whose name is an alias of `v`, otherwise the one stored
under the member of the enum. -/
def source (t : Table) (v : EVar) : Option (List ℚ × String) :=
  match (t.filter fun e => decide (aliasOf e.1 = some v)).getLast? with
  | some e => some e.2
  | none => Dict.get? t (.enum v)

theorem renameOne_some {t : Table} {p : Key × EVar} {x : List ℚ × String} (h : Dict.get? t p.1 = some x) :
    renameOne t p = Dict.set (Dict.erase t p.1) (.enum p.2) x := by
  unfold renameOne; rw [h]

theorem foldl_rename (l : List (Key × EVar)) : ∀ (t : Table), (Dict.keys t).Nodup → (l.map Prod.fst).Nodup →
    (∀ p ∈ l, ∃ s, p.1 = .text s) → (∀ p ∈ l, p.1 ∈ Dict.keys t) →
    (Dict.keys (l.foldl renameOne t)).Nodup ∧
    (∀ v, Dict.get? (l.foldl renameOne t) (.enum v) =
      match (l.filter fun p => decide (p.2 = v)).getLast? with
      | some p => Dict.get? t p.1
      | none => Dict.get? t (.enum v)) ∧
    ∀ s, Dict.get? (l.foldl renameOne t) (.text s) =
      if Key.text s ∈ l.map Prod.fst then none else Dict.get? t (.text s) := by
  induction l with
  | nil => intro t h _ _ _; exact ⟨h, fun v => rfl, fun s => by simp⟩
  | cons p l ih =>
    intro t hn hl ht hm
    obtain ⟨s₀, hs₀⟩ := ht p (by simp)
    obtain ⟨x, hx⟩ := Option.isSome_iff_exists.mp ((Dict.get?_isSome_iff t p.1).mpr (hm p (by simp)))
    rw [List.map_cons, List.nodup_cons] at hl
    have hn' := Dict.nodup_set (Dict.erase t p.1) (.enum p.2) x (Dict.nodup_erase t p.1 hn)
    have hget : ∀ k, Dict.get? (renameOne t p) k =
        if Key.enum p.2 = k then some x else if p.1 = k then none else Dict.get? t k := by
      intro k
      rw [renameOne_some hx, Dict.get?_set, Dict.get?_erase t hn]
    have hm' : ∀ q ∈ l, q.1 ∈ Dict.keys (renameOne t p) := by
      intro q hq
      obtain ⟨s, hs⟩ := ht q (by simp [hq])
      rw [← Dict.get?_isSome_iff, hget, hs, if_neg (by simp), if_neg, ← hs, Dict.get?_isSome_iff]
      · exact hm q (by simp [hq])
      · intro h
        apply hl.1
        rw [h, ← hs]
        exact List.mem_map_of_mem hq
    obtain ⟨i1, i2, i3⟩ := ih (renameOne t p) (by rw [renameOne_some hx]; exact hn') hl.2 (fun q hq => ht q (by simp [hq])) hm'
    rw [List.foldl_cons]
    refine ⟨i1, fun v => ?_, fun s => ?_⟩
    · rw [i2 v]
      have hq : ∀ q ∈ l, Dict.get? (renameOne t p) q.1 = Dict.get? t q.1 := by
        intro q hq
        obtain ⟨s, hs⟩ := ht q (by simp [hq])
        rw [hget, hs, if_neg (by simp), if_neg]
        intro h
        apply hl.1
        rw [h, ← hs]
        exact List.mem_map_of_mem hq
      cases hlast : (l.filter fun p => decide (p.2 = v)).getLast? with
      | some q =>
        have hmem : q ∈ l := List.mem_of_mem_filter (List.mem_of_getLast? hlast)
        have : ((p :: l).filter fun p => decide (p.2 = v)).getLast? = some q := by
          rw [List.filter_cons]
          split
          · rw [List.getLast?_cons, hlast]; rfl
          · exact hlast
        rw [this]
        exact hq q hmem
      | none =>
        have hnil : (l.filter fun p => decide (p.2 = v)) = [] := List.getLast?_eq_none_iff.mp hlast
        by_cases hp : p.2 = v
        · have : ((p :: l).filter fun p => decide (p.2 = v)).getLast? = some p := by
            rw [List.filter_cons, if_pos (by simpa using hp), hnil]; rfl
          rw [this]
          dsimp only
          rw [hget, if_pos (by rw [hp]), hx]
        · have : ((p :: l).filter fun p => decide (p.2 = v)).getLast? = none := by
            rw [List.filter_cons, if_neg (by simpa using hp), hnil]; rfl
          rw [this]
          dsimp only
          rw [hget, if_neg (by simpa using hp), if_neg (by rw [hs₀]; simp)]
    · rw [i3 s, hget, if_neg (show Key.enum p.2 ≠ Key.text s by simp)]
      by_cases h : p.1 = .text s
      · rw [if_pos h, if_pos (show Key.text s ∈ (p :: l).map Prod.fst by simp [h])]; simp
      · rw [if_neg h]
        by_cases h2 : Key.text s ∈ l.map Prod.fst
        · rw [if_pos h2, if_pos (by rw [List.map_cons]; exact List.mem_cons_of_mem _ h2)]
        · rw [if_neg h2, if_neg]
          rw [List.map_cons, List.mem_cons]
          rintro (h3 | h3)
          · exact h h3.symm
          · exact h2 h3

theorem aliasDict_keys_sublist (t : Table) : ((aliasDict t).map Prod.fst).Sublist (Dict.keys t) := by
  unfold aliasDict Dict.keys
  induction t with
  | nil => exact List.Sublist.refl _
  | cons e t ih =>
    rw [List.filterMap_cons]
    cases h : aliasOf e.1 with
    | none => exact ih.cons _
    | some v => exact ih.cons_cons _

theorem mem_aliasDict {t : Table} {p : Key × EVar} (h : p ∈ aliasDict t) : aliasOf p.1 = some p.2 ∧ p.1 ∈ Dict.keys t := by
  unfold aliasDict at h
  obtain ⟨e, he, h2⟩ := List.mem_filterMap.mp h
  obtain ⟨v, hv, rfl⟩ := Option.map_eq_some_iff.mp h2
  exact ⟨hv, List.mem_map_of_mem he⟩

theorem alias_text {k : Key} {v : EVar} (h : aliasOf k = some v) : ∃ s, k = .text s := by
  cases k with
  | text s => exact ⟨s, rfl⟩
  | enum _ => cases h

theorem aliasDict_filter (t : Table) (v : EVar) :
    (aliasDict t).filter (fun p => decide (p.2 = v)) =
      (t.filter fun e => decide (aliasOf e.1 = some v)).map fun e => (e.1, v) := by
  unfold aliasDict
  induction t with
  | nil => rfl
  | cons e t ih =>
    rw [List.filterMap_cons, List.filter_cons]
    cases h : aliasOf e.1 with
    | none => simpa using ih
    | some w =>
      simp only [Option.map_some]
      rw [List.filter_cons]
      by_cases hw : w = v
      · subst hw; simpa using ih
      · simp only [hw, decide_false, Bool.false_eq_true, if_false, Option.some.injEq]
        exact ih

/-- After the renaming, a variable of the deck is the last column named by one of its aliases, and no recognised text is left. -/
theorem rename_get (t : Table) (hn : (Dict.keys t).Nodup) :
    (Dict.keys (rename t)).Nodup ∧ (∀ v, Dict.get? (rename t) (.enum v) = source t v) ∧
    ∀ s, Dict.get? (rename t) (.text s) = if (aliasOf (.text s)).isSome then none else Dict.get? t (.text s) := by
  obtain ⟨h1, h2, h3⟩ := foldl_rename (aliasDict t) t hn ((aliasDict_keys_sublist t).nodup hn)
    (fun p hp => alias_text (mem_aliasDict hp).1) (fun p hp => (mem_aliasDict hp).2)
  refine ⟨h1, fun v => ?_, fun s => ?_⟩
  · unfold rename source
    rw [h2 v, aliasDict_filter, List.getLast?_map]
    cases hl : (t.filter fun e => decide (aliasOf e.1 = some v)).getLast? with
    | none => rfl
    | some e =>
      exact Dict.get?_of_mem t hn (List.mem_of_mem_filter (List.mem_of_getLast? hl))
  · unfold rename
    rw [h3 s]
    by_cases h : Key.text s ∈ (aliasDict t).map Prod.fst
    · obtain ⟨p, hp, hp2⟩ := List.mem_map.mp h
      have := (mem_aliasDict hp).1
      rw [hp2] at this
      rw [if_pos h, this]; rfl
    · rw [if_neg h]
      split
      · rename_i hs
        obtain ⟨v, hv⟩ := Option.isSome_iff_exists.mp hs
        rw [Dict.get?_eq_none_iff]
        intro hk
        apply h
        obtain ⟨e, he, he2⟩ := List.mem_map.mp hk
        refine List.mem_map.mpr ⟨(e.1, v), ?_, he2⟩
        unfold aliasDict
        exact List.mem_filterMap.mpr ⟨e, he, by rw [he2, hv]; rfl⟩
      · rfl

theorem readStep_error (conv : String → EVar → Option (ℚ → ℚ)) (l : Table) (x : Err) :
    l.foldl (readStep conv) (.error x) = .error x := by
  induction l with
  | nil => rfl
  | cons e l ih => exact ih

theorem foldl_read (conv : String → EVar → Option (ℚ → ℚ)) (l : Table) : ∀ (r r' : Read), (Dict.keys l).Nodup →
    l.foldl (readStep conv) (.ok r) = .ok r' →
    (∀ v, v ∈ r'.vars ↔ v ∈ r.vars ∨ (known (.enum v) = true ∧ Key.enum v ∈ Dict.keys l)) ∧
    ∀ v, match Dict.get? l (.enum v) with
      | none => Dict.get? r'.orig (.enum v) = Dict.get? r.orig (.enum v)
      | some (x, u) => if known (.enum v) then ∃ f, conv u v = some f ∧ Dict.get? r'.orig (.enum v) = some (x.map f)
        else Dict.get? r'.orig (.enum v) = some x := by
  induction l with
  | nil => intro r r' _ h; cases h; exact ⟨fun v => by simp [Dict.keys], fun v => rfl⟩
  | cons e l ih =>
    intro r r' hn h
    obtain ⟨k, x, u⟩ := e
    rw [List.foldl_cons] at h
    have hn2 : k ∉ Dict.keys l ∧ (Dict.keys l).Nodup := List.nodup_cons.mp hn
    -- what one step does
    obtain ⟨q, hq⟩ : ∃ q, readStep conv (.ok r) (k, (x, u)) = q := ⟨_, rfl⟩
    rw [hq] at h
    cases q with
    | error y => rw [readStep_error] at h; cases h
    | ok m =>
      obtain ⟨i1, i2⟩ := ih m r' hn2.2 h
      have step : (∀ v, v ∈ m.vars ↔ v ∈ r.vars ∨ (known (.enum v) = true ∧ Key.enum v = k)) ∧
          (∀ v, k ≠ .enum v → Dict.get? m.orig (.enum v) = Dict.get? r.orig (.enum v)) ∧
          ∀ v, k = .enum v → if known (.enum v) then ∃ f, conv u v = some f ∧ Dict.get? m.orig (.enum v) = some (x.map f)
            else Dict.get? m.orig (.enum v) = some x := by
        unfold readStep at hq
        cases k with
        | text s =>
          dsimp only at hq
          cases hq
          refine ⟨fun v => by simp, fun v hv => ?_, fun v hv => by cases hv⟩
          dsimp only
          rw [Dict.get?_set, if_neg hv]
        | enum w =>
          dsimp only at hq
          by_cases hk : known (.enum w) = true
          · rw [if_pos hk] at hq
            cases hc : conv u w with
            | none => rw [hc] at hq; cases hq
            | some f =>
              rw [hc] at hq
              cases hq
              refine ⟨fun v => ?_, fun v hv => ?_, fun v hv => ?_⟩
              · dsimp only
                rw [List.mem_append, List.mem_singleton]
                refine or_congr Iff.rfl ⟨fun h => ?_, fun h => ?_⟩
                · subst h; exact ⟨hk, rfl⟩
                · cases h.2; rfl
              · dsimp only; rw [Dict.get?_set, if_neg hv]
              · cases hv
                rw [if_pos hk]
                exact ⟨f, hc, by dsimp only; rw [Dict.get?_set, if_pos rfl]⟩
          · rw [if_neg hk] at hq
            cases hq
            refine ⟨fun v => ?_, fun v hv => ?_, fun v hv => ?_⟩
            · refine ⟨.inl, ?_⟩
              rintro (h | ⟨h, h2⟩)
              · exact h
              · cases h2; exact absurd h hk
            · dsimp only; rw [Dict.get?_set, if_neg hv]
            · cases hv
              rw [if_neg hk]
              dsimp only; rw [Dict.get?_set, if_pos rfl]
      obtain ⟨s1, s2, s3⟩ := step
      have hkeys : Dict.keys ((k, (x, u)) :: l) = k :: Dict.keys l := rfl
      refine ⟨fun v => ?_, fun v => ?_⟩
      · rw [i1, s1, hkeys, List.mem_cons]; tauto
      · have i := i2 v
        have hcons : Dict.get? ((k, (x, u)) :: l) (.enum v) = if k = .enum v then some (x, u) else Dict.get? l (.enum v) := rfl
        rw [hcons]
        by_cases hv : k = .enum v
        · have hno : Dict.get? l (.enum v) = none := by
            rw [Dict.get?_eq_none_iff, ← hv]; exact hn2.1
          rw [hno] at i
          dsimp only at i
          rw [if_pos hv]
          dsimp only
          have := s3 v hv
          rw [← i] at this
          exact this
        · rw [if_neg hv]
          have e2 := s2 v hv
          cases hg : Dict.get? l (.enum v) with
          | none =>
            rw [hg] at i
            dsimp only at i ⊢
            exact i.trans e2
          | some y =>
            rw [hg] at i
            exact i

theorem lookup_mem : ∀ (l : List (EVar × List String)) (s : String) (v : EVar), lookup l s = some v → v ∈ l.map Prod.fst
  | [], _, _, h => by cases h
  | (w, ns) :: l, s, v, h => by
    unfold lookup at h
    split at h
    · cases h; exact List.mem_cons_self ..
    · exact List.mem_cons_of_mem _ (lookup_mem l s v h)

theorem known_iff (v : EVar) : known (.enum v) = true ↔ v ≠ .torque := by
  cases v <;> decide

theorem all_get (v : EVar) : Dict.get? (EVar.all.map fun v => (Key.enum v, ([] : List ℚ))) (.enum v) = some [] := by
  cases v <;> decide

/-- A deck read from memory: each variable except the torque holds the converted numbers of its source column, is listed in the
variables of the deck exactly when it has one, and is empty otherwise. -/
theorem read_value (conv : String → EVar → Option (ℚ → ℚ)) (t : Table) (hn : (Dict.keys t).Nodup) (vars : List EVar)
    (data : EVar → List ℚ) (h : readData conv t = .ok (vars, data)) (v : EVar) (hv : v ≠ .torque) :
    (v ∈ vars ↔ (source t v).isSome = true) ∧
    (∀ x u, source t v = some (x, u) → ∃ f, conv u v = some f ∧ data v = x.map f) ∧
    (source t v = none → data v = []) := by
  obtain ⟨r1, r2, -⟩ := rename_get t hn
  unfold readData at h
  split at h
  · cases h
  · rename_i r hr
    split at h
    · cases h
    · cases h
      obtain ⟨i1, i2⟩ := foldl_read conv (rename t) _ r r1 hr
      have i := i2 v
      rw [r2 v] at i
      have hk := (known_iff v).mpr hv
      refine ⟨?_, fun x u hs => ?_, fun hs => ?_⟩
      · rw [i1, ← Dict.get?_isSome_iff, r2 v]
        simp [hk]
      · rw [hs] at i
        dsimp only at i
        rw [if_pos hk] at i
        obtain ⟨f, hf, hd⟩ := i
        exact ⟨f, hf, by dsimp only; rw [hd]; rfl⟩
      · rw [hs] at i
        dsimp only at i
        rw [all_get] at i
        dsimp only; rw [i]; rfl

/-- The torque is taken over without conversion and is never a variable of the deck. -/
theorem torque_violated (conv : String → EVar → Option (ℚ → ℚ)) (t : Table) (hn : (Dict.keys t).Nodup) (vars : List EVar)
    (data : EVar → List ℚ) (h : readData conv t = .ok (vars, data)) (x : List ℚ) (u : String)
    (hs : Dict.get? t (.enum .torque) = some (x, u)) : EVar.torque ∉ vars ∧ data .torque = x := by
  obtain ⟨r1, r2, -⟩ := rename_get t hn
  have hsrc : source t .torque = some (x, u) := by
    unfold source
    have : (t.filter fun e => decide (aliasOf e.1 = some EVar.torque)) = [] := by
      rw [List.filter_eq_nil_iff]
      intro e _
      rw [decide_eq_true_eq]
      cases e.1 with
      | enum _ => exact fun h => by cases h
      | text s =>
        intro h
        exact absurd (lookup_mem aliases s _ h) (by decide)
    rw [this]; exact hs
  unfold readData at h
  split at h
  · cases h
  · rename_i r hr
    split at h
    · cases h
    · cases h
      obtain ⟨i1, i2⟩ := foldl_read conv (rename t) _ r r1 hr
      have i := i2 .torque
      have hk : known (.enum .torque) = false := by decide
      rw [r2 .torque, hsrc] at i
      dsimp only at i
      rw [hk] at i
      simp only [Bool.false_eq_true, if_false] at i
      refine ⟨?_, by dsimp only; rw [i]; rfl⟩
      rw [i1]
      rintro (h | ⟨h, -⟩)
      · cases h
      · rw [hk] at h; cases h

/-- Identity conversion, for the examples. -/
def conv0 : String → EVar → Option (ℚ → ℚ) := fun _ _ => some id

/-- A table with two columns that are both thrust. -/
def tableEx : Table :=
  [(.text "mach", ([0], "unitless")), (.text "thrust", ([5], "lbf")), (.text "Altitude", ([7], "ft")),
   (.text "net_thrust", ([6], "lbf"))]

theorem tableEx_read : ∃ vars data, readData conv0 tableEx = .ok (vars, data) := by
  refine ⟨_, _, rfl⟩

/-- Two columns for one variable are accepted, and the first is dropped without a message. -/
theorem two_aliases_violated : ∃ vars data, readData conv0 tableEx = .ok (vars, data) ∧ data .thrust = [6] ∧
    ∃ e ∈ tableEx, aliasOf e.1 = some .thrust ∧ e.2.1 ≠ data .thrust := by
  obtain ⟨vars, data, h⟩ := tableEx_read
  have hv := (read_value conv0 tableEx (by decide) vars data h .thrust (by decide)).2.1 [6] "lbf" (by decide)
  obtain ⟨f, hf, hd⟩ := hv
  cases hf
  rw [List.map_id] at hd
  exact ⟨vars, data, h, hd, (.text "thrust", ([5], "lbf")), by decide, by decide, by rw [hd]; decide⟩

/-- Names are compared with upper and lower case: `Altitude` is not recognised, and the deck has no altitudes. -/
theorem case_violated : ∃ vars data, readData conv0 tableEx = .ok (vars, data) ∧ EVar.altitude ∉ vars ∧ data .altitude = [] := by
  obtain ⟨vars, data, h⟩ := tableEx_read
  obtain ⟨h1, -, h3⟩ := read_value conv0 tableEx (by decide) vars data h .altitude (by decide)
  have hs : source tableEx .altitude = none := by decide
  exact ⟨vars, data, h, by rw [h1, hs]; decide, h3 hs⟩

/-- The user's table is changed: a recognised name is no longer in it after the reading. -/
theorem table_changed_violated (t : Table) (hn : (Dict.keys t).Nodup) (s : String) (v : EVar)
    (ha : aliasOf (.text s) = some v) (hs : Key.text s ∈ Dict.keys t) : rename t ≠ t := by
  intro h
  have := (rename_get t hn).2.2 s
  rw [ha, h] at this
  simp only [Option.isSome_some, if_true] at this
  exact (Dict.get?_eq_none_iff t _).mp this hs

example : rename tableEx ≠ tableEx := table_changed_violated tableEx (by decide) "mach" .mach (by decide) (by decide)

end Verif.DeckRead
