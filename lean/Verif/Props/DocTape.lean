import Verif.Model.DocTape
import Verif.Lemmas.Dict
import Mathlib.Data.List.Perm.Basic
import Mathlib.Tactic.Linarith

/-!
# Properties of the tools of the documentation and of the table of variables
-/

namespace Verif.DocTape

/-! ## Paths -/

mutual
/-- The paths below a value. -/
def treePaths : Tree → List (List Str)
  | .leaf _ => []
  | .node d => paths d
/-- The paths of keys through a dictionary of dictionaries, without names in double underscores. -/
def paths : Items → List (List Str)
  | .nil => []
  | .cons k t rest => if dunder k then paths rest else [k] :: (treePaths t).map (k :: ·) ++ paths rest
end

mutual
/-- All keys of a value are good for paths: not empty, without dots. -/
def goodTree : Tree → Prop
  | .leaf _ => True
  | .node d => Good d
/-- All keys are good for paths: not empty, without dots, no key twice in a dictionary. -/
def Good : Items → Prop
  | .nil => True
  | .cons k t rest => k ≠ [] ∧ '.' ∉ k ∧ rest.find k = none ∧ goodTree t ∧ Good rest
end

/-- A path in text, below a layer. -/
def dotted (layer : Str) : List Str → Str
  | [] => layer
  | k :: ks => dotted (if layer = [] then k else layer ++ '.' :: k) ks

theorem addKey_mem (acc : List Str) (k x : Str) : x ∈ addKey acc k ↔ x ∈ acc ∨ x = k := by
  unfold addKey; split_ifs with h
  · constructor
    · exact Or.inl
    · rintro (hx | rfl); exacts [hx, h]
  · simp

theorem addKey_nodup {acc : List Str} (h : acc.Nodup) (k : Str) : (addKey acc k).Nodup := by
  unfold addKey; split_ifs with hk
  · exact h
  · rw [List.nodup_append]
    exact ⟨h, by simp, by intro a ha b hb; rw [List.mem_singleton] at hb; subst hb; rintro rfl; exact hk ha⟩

mutual
theorem treeKeys_nodup : ∀ (t : Tree) (track : Track) (acc : List Str), acc.Nodup → (treeKeys track acc t).Nodup
  | .leaf _, _, _, h => by rw [treeKeys]; exact h
  | .node d, track, acc, h => by rw [treeKeys]; exact allKeys_nodup d track acc h
/-- No key is listed twice. -/
theorem allKeys_nodup : ∀ (d : Items) (track : Track) (acc : List Str), acc.Nodup → (allKeys track acc d).Nodup
  | .nil, _, _, h => by rw [allKeys]; exact h
  | .cons k t rest, track, acc, h => by
    rw [allKeys]
    split_ifs
    · exact allKeys_nodup rest track acc h
    · exact allKeys_nodup rest track _ (treeKeys_nodup t _ _ (addKey_nodup h _))
end

/-- The layers that occur: the outermost one, or a name. -/
def ofLayer (L : Str) : Track := if L = [] then .on else .layer L

theorem ofLayer_key (L k : Str) : (ofLayer L).key k = if L = [] then k else L ++ '.' :: k := by
  unfold ofLayer Track.key
  split_ifs with h1 h2 h2 <;> simp_all [Track.truthy, Track.current]

theorem ofLayer_next (L k : Str) : (ofLayer L).next k = .layer k := by
  unfold ofLayer Track.next
  split_ifs with h1 h2 h2 <;> simp_all [Track.truthy]

mutual
theorem treeKeys_mem : ∀ (t : Tree) (L : Str) (acc : List Str) (x : Str), goodTree t → L ≠ [] →
    (x ∈ treeKeys (.layer L) acc t ↔ x ∈ acc ∨ ∃ p ∈ treePaths t, x = dotted L p)
  | .leaf _, L, acc, x, _, _ => by simp [treeKeys, treePaths]
  | .node d, L, acc, x, h, hL => by
    rw [treeKeys, treePaths]
    have := allKeys_mem d L acc x (by simpa [goodTree] using h)
    rw [ofLayer, if_neg hL] at this
    exact this
/-- With layers, the list of keys is the list of paths. -/
theorem allKeys_mem : ∀ (d : Items) (L : Str) (acc : List Str) (x : Str), Good d →
    (x ∈ allKeys (ofLayer L) acc d ↔ x ∈ acc ∨ ∃ p ∈ paths d, x = dotted L p)
  | .nil, L, acc, x, _ => by simp [allKeys, paths]
  | .cons k t rest, L, acc, x, h => by
    rw [Good] at h
    rw [allKeys, paths]
    split_ifs with hd
    · exact allKeys_mem rest L acc x h.2.2.2.2
    · rw [allKeys_mem rest L _ x h.2.2.2.2, ofLayer_next, ofLayer_key]
      have hne : (if L = [] then k else L ++ '.' :: k) ≠ [] := by
        split_ifs
        · exact h.1
        · simp
      rw [treeKeys_mem t _ _ x h.2.2.2.1 hne, addKey_mem]
      constructor
      · rintro (((hx | hx) | ⟨p, hp, hx⟩) | ⟨p, hp, hx⟩)
        · exact Or.inl hx
        · exact Or.inr ⟨[k], by simp, by rw [hx]; rfl⟩
        · exact Or.inr ⟨k :: p, by simp [hp], by rw [hx]; rfl⟩
        · exact Or.inr ⟨p, by simp [hp], hx⟩
      · rintro (hx | ⟨p, hp, hx⟩)
        · exact Or.inl (Or.inl (Or.inl hx))
        · rcases List.mem_append.1 hp with hp | hp
          · rcases List.mem_cons.1 hp with rfl | hp
            · exact Or.inl (Or.inl (Or.inr (by rw [hx]; rfl)))
            · obtain ⟨q, hq, rfl⟩ := List.mem_map.1 hp
              exact Or.inl (Or.inr ⟨q, hq, by rw [hx]; rfl⟩)
          · exact Or.inr ⟨p, hp, hx⟩
end

/-! ## Splitting -/

theorem split_ne_nil (s : Str) : split s ≠ [] := by
  cases s with
  | nil => simp [split]
  | cons c l => rw [split]; split_ifs; · simp
                · split <;> simp

theorem split_plain {a : Str} (h : '.' ∉ a) : split a = [a] := by
  induction a with
  | nil => rfl
  | cons c l ih =>
    simp only [List.mem_cons, not_or] at h
    rw [split, if_neg (Ne.symm h.1), ih h.2]

theorem split_append {a : Str} (h : '.' ∉ a) (b : Str) : split (a ++ '.' :: b) = a :: split b := by
  induction a with
  | nil => simp [split]
  | cons c l ih =>
    simp only [List.mem_cons, not_or] at h
    rw [List.cons_append, split, if_neg (Ne.symm h.1), ih h.2]

/-- Text of the parts, joined by dots. -/
def joinDots : List Str → Str
  | [] => []
  | [a] => a
  | a :: l => a ++ '.' :: joinDots l

theorem join_split (s : Str) : joinDots (split s) = s := by
  induction s with
  | nil => rfl
  | cons c l ih =>
    rw [split]
    split_ifs with h
    · subst h
      obtain ⟨a, t, ht⟩ := List.exists_cons_of_ne_nil (split_ne_nil l)
      rw [ht] at ih ⊢
      simp only [joinDots, List.nil_append, ih]
    · obtain ⟨a, t, ht⟩ := List.exists_cons_of_ne_nil (split_ne_nil l)
      rw [ht] at ih ⊢
      cases t with
      | nil => simp only [joinDots] at ih ⊢; rw [ih]
      | cons b t => simp only [joinDots, List.cons_append] at ih ⊢; rw [ih]

theorem dotted_append : ∀ (ks : List Str) (L : Str), L ≠ [] → ks ≠ [] → dotted L ks = L ++ '.' :: joinDots ks
  | [], _, _, h => absurd rfl h
  | [k], L, hL, _ => by simp [dotted, joinDots, hL]
  | k :: k' :: ks, L, hL, _ => by
    rw [dotted, if_neg hL, dotted_append (k' :: ks) _ (by simp) (by simp)]
    simp [joinDots]

theorem dotted_eq {ks : List Str} (h : ∀ k ∈ ks, k ≠ []) : dotted [] ks = joinDots ks := by
  cases ks with
  | nil => rfl
  | cons k l =>
    rw [dotted, if_pos rfl]
    cases l with
    | nil => rfl
    | cons k' l => rw [dotted_append _ _ (h k (by simp)) (by simp)]; rfl

theorem split_join : ∀ {ks : List Str}, ks ≠ [] → (∀ k ∈ ks, '.' ∉ k) → split (joinDots ks) = ks
  | [], h, _ => absurd rfl h
  | [k], _, h => split_plain (h k (by simp))
  | k :: k' :: ks, _, h => by
    rw [joinDots, split_append (h k (by simp)), split_join (by simp) (fun x hx => h x (by simp [hx]))]
    simp

mutual
theorem treePaths_good : ∀ (t : Tree), goodTree t → ∀ p ∈ treePaths t, p ≠ [] ∧ ∀ k ∈ p, k ≠ [] ∧ '.' ∉ k ∧ dunder k = false
  | .leaf _, _, p, hp => by simp [treePaths] at hp
  | .node d, h, p, hp => paths_good d (by simpa [goodTree] using h) p (by simpa [treePaths] using hp)
theorem paths_good : ∀ (d : Items), Good d → ∀ p ∈ paths d, p ≠ [] ∧ ∀ k ∈ p, k ≠ [] ∧ '.' ∉ k ∧ dunder k = false
  | .nil, _, p, hp => by simp [paths] at hp
  | .cons k t rest, h, p, hp => by
    rw [Good] at h
    rw [paths] at hp
    split_ifs at hp with hd
    · exact paths_good rest h.2.2.2.2 p hp
    · rcases List.mem_append.1 hp with hp | hp
      · rcases List.mem_cons.1 hp with rfl | hp
        · exact ⟨by simp, by simpa using ⟨h.1, h.2.1, Bool.eq_false_iff.2 hd⟩⟩
        · obtain ⟨q, hq, rfl⟩ := List.mem_map.1 hp
          have := treePaths_good t h.2.2.2.1 q hq
          refine ⟨by simp, ?_⟩
          intro x hx
          rcases List.mem_cons.1 hx with rfl | hx
          · exact ⟨h.1, h.2.1, by simpa using hd⟩
          · exact this.2 x hx
      · exact paths_good rest h.2.2.2.2 p hp
end

theorem paths_find : ∀ (d : Items) (k : Str) (ks : List Str), Good d → (k :: ks ∈ paths d ↔
    dunder k = false ∧ ∃ t, d.find k = some t ∧ (ks = [] ∨ ks ∈ treePaths t))
  | .nil, k, ks, _ => by simp [paths, Items.find]
  | .cons k' t rest, k, ks, h => by
    rw [Good] at h
    have ih := paths_find rest k ks h.2.2.2.2
    rw [paths, Items.find]
    by_cases hk : k' = k
    · subst hk
      rw [if_pos rfl]
      have hno : ¬ (k' :: ks ∈ paths rest) := by rw [ih, h.2.2.1]; simp
      split_ifs with hd
      · simp [hno, hd]
      · simp [hno, hd]
    · rw [if_neg hk, ← ih]
      split_ifs with hd
      · rfl
      · simp [Ne.symm hk, hk]

theorem walk_paths : ∀ (ks : List Str) (t : Tree), goodTree t → ks ≠ [] → (ks ∈ treePaths t ↔
    (∃ v, walk t ks = .ok v) ∧ ∀ k ∈ ks, dunder k = false)
  | [], _, _, h => absurd rfl h
  | k :: ks, .leaf _, _, _ => by simp [treePaths, walk]
  | k :: ks, .node d, h, _ => by
    have hg : Good d := by simpa [goodTree] using h
    rw [treePaths, paths_find d k ks hg, walk]
    cases hf : d.find k with
    | none => simp
    | some t =>
      have hgt : goodTree t := by
        have key : ∀ (d : Items), Good d → ∀ t, d.find k = some t → goodTree t := by
          intro d
          induction d using Items.rec (motive_1 := fun _ => True) with
          | leaf => trivial
          | node => trivial
          | nil => intro _ t ht; simp [Items.find] at ht
          | cons k' t' rest _ ih =>
            intro hg t ht
            rw [Good] at hg
            rw [Items.find] at ht
            split_ifs at ht
            · cases ht; exact hg.2.2.2.1
            · exact ih hg.2.2.2.2 t ht
        exact key d hg t hf
      dsimp only
      by_cases hks : ks = []
      · subst hks; simp [walk]
      · have ih := walk_paths ks t hgt hks
        simp only [Option.some.injEq, exists_eq_left', hks, false_or, ih, List.mem_cons, forall_eq_or_imp]
        tauto

/-- **Keys and values**: the keys listed with their layers are exactly the texts for which `get_value` finds something and that
name nothing in double underscores. -/
theorem keys_values {d : Items} (h : Good d) (x : Str) :
    x ∈ allKeys .on [] d ↔ (∃ v, getValue d x = .ok v) ∧ ∀ k ∈ split x, dunder k = false := by
  have h1 := allKeys_mem d [] [] x h
  rw [show ofLayer [] = .on from rfl] at h1
  have h2 := walk_paths (split x) (.node d) (by simpa [goodTree] using h) (split_ne_nil x)
  rw [h1, getValue, ← h2, treePaths]
  constructor
  · rintro (hx | ⟨p, hp, rfl⟩)
    · simp at hx
    · have hg := paths_good d h p hp
      rw [dotted_eq (fun k hk => (hg.2 k hk).1), split_join hg.1 (fun k hk => (hg.2 k hk).2.1)]
      exact hp
  · intro hp
    refine Or.inr ⟨_, hp, ?_⟩
    have hg := paths_good d h _ hp
    rw [dotted_eq (fun k hk => (hg.2 k hk).1), join_split]

mutual
theorem treeKeys_off : ∀ (t : Tree) (acc : List Str) (x : Str),
    (x ∈ treeKeys .off acc t ↔ x ∈ acc ∨ ∃ p ∈ treePaths t, p.getLast? = some x)
  | .leaf _, acc, x => by simp [treeKeys, treePaths]
  | .node d, acc, x => by rw [treeKeys, treePaths]; exact allKeys_off d acc x
/-- Without layers the last keys of the paths are listed. -/
theorem allKeys_off : ∀ (d : Items) (acc : List Str) (x : Str),
    (x ∈ allKeys .off acc d ↔ x ∈ acc ∨ ∃ p ∈ paths d, p.getLast? = some x)
  | .nil, acc, x => by simp [allKeys, paths]
  | .cons k t rest, acc, x => by
    rw [allKeys, paths]
    split_ifs with hd
    · exact allKeys_off rest acc x
    · have hkey : Track.off.key k = k := rfl
      have hnext : Track.off.next k = .off := rfl
      rw [allKeys_off rest _ x, hkey, hnext, treeKeys_off t _ x, addKey_mem]
      constructor
      · rintro (((hx | hx) | ⟨p, hp, hx⟩) | ⟨p, hp, hx⟩)
        · exact Or.inl hx
        · exact Or.inr ⟨[k], by simp, by rw [hx]; rfl⟩
        · refine Or.inr ⟨k :: p, by simp [hp], ?_⟩
          cases p with
          | nil => simp at hx
          | cons a p => rw [List.getLast?_cons_cons]; exact hx
        · exact Or.inr ⟨p, by simp [hp], hx⟩
      · rintro (hx | ⟨p, hp, hx⟩)
        · exact Or.inl (Or.inl (Or.inl hx))
        · rcases List.mem_append.1 hp with hp | hp
          · rcases List.mem_cons.1 hp with rfl | hp
            · exact Or.inl (Or.inl (Or.inr (by simpa using hx.symm)))
            · obtain ⟨q, hq, rfl⟩ := List.mem_map.1 hp
              cases q with
              | nil => exact Or.inl (Or.inl (Or.inr (by simpa using hx.symm)))
              | cons a q => exact Or.inl (Or.inr ⟨_, hq, by rw [List.getLast?_cons_cons] at hx; exact hx⟩)
          · exact Or.inr ⟨p, hp, hx⟩
end

/-- A key with a dot is listed, and cannot be looked up. -/
theorem dot_violated : ['a', '.', 'b'] ∈ allKeys .on [] (.cons ['a', '.', 'b'] (.leaf 1) .nil) ∧
    getValue (.cons ['a', '.', 'b'] (.leaf 1) .nil) ['a', '.', 'b'] = .error .keyError :=
  ⟨by decide +kernel, rfl⟩

/-- Below an empty key the layers are forgotten: the key listed is not a path. -/
theorem empty_key_violated : ∃ d : Items, ['a'] ∈ allKeys .on [] d ∧ getValue d ['a'] = .error .keyError :=
  ⟨.cons [] (.node (.cons ['a'] (.leaf 1) .nil)) .nil, by decide +kernel, by rfl⟩

/-- With the name of a class as layer, as `glue_keys` has it, no key can be looked up in the class, unless it has a member of its own
name. -/
theorem named_layer {d : Items} (h : Good d) {name : Str} (hn : name ≠ []) (hd : '.' ∉ name) (hf : d.find name = none) :
    ∀ x ∈ allKeys (.layer name) [] d, getValue d x = .error .keyError := by
  intro x hx
  have := allKeys_mem d name [] x h
  rw [ofLayer, if_neg hn] at this
  rcases this.1 hx with hx | ⟨p, hp, rfl⟩
  · simp at hx
  · rw [dotted_append p name hn (paths_good d h p hp).1, getValue, split_append hd, walk, hf]

/-- A hierarchy: two classes with members of the same name. -/
def sample : Items :=
  .cons ['w'] (.node (.cons ['m'] (.leaf 1) (.cons ['_', '_', 'n', '_', '_'] (.leaf 2) .nil)))
    (.cons ['f'] (.node (.cons ['m'] (.leaf 3) .nil)) .nil)

example : Good sample := by
  simp [sample, Good, goodTree, Items.find]

example : allKeys .on [] sample = [['w'], ['w', '.', 'm'], ['f'], ['f', '.', 'm']] ∧
    allKeys .off [] sample = [['w'], ['m'], ['f']] := by decide +kernel

/-! ## Lists and checks -/

/-- One is alone, two are joined by the conjunction, more have commas and the conjunction before the last; none raise. -/
theorem gramatical_spec (l : List String) (cc : String) : gramatical l cc =
    match l with
    | [] => .error .indexError
    | [a] => .ok a
    | [a, b] => .ok (a ++ " " ++ cc ++ " " ++ b)
    | a :: b :: c :: r => .ok (commas ((a :: b :: c :: r).dropLast) ++ ", " ++ cc ++ " " ++ (c :: r).getLast (by simp)) := by
  match l with
  | [] => rfl
  | [a] => rfl
  | [a, b] => rfl
  | a :: b :: c :: r =>
    have key : ∀ (m : List String) (y : String), m ≠ [] → commas (m ++ [y]) = commas m ++ ", " ++ y := by
      intro m
      induction m with
      | nil => intro y h; exact absurd rfl h
      | cons z m ih =>
        intro y _
        cases m with
        | nil => rfl
        | cons w m =>
          have := ih y (by simp)
          simp only [List.cons_append, commas] at this ⊢
          rw [this]
          simp [String.append_assoc]
    simp only [gramatical]
    rw [List.getLast?_eq_getLast_of_ne_nil (by simp)]
    dsimp only
    rw [key _ _ (by simp), List.getLast_cons (by simp), List.getLast_cons (by simp)]
    simp [String.append_assoc]

/-- Values that are no arrays pass exactly if they are the same. -/
theorem checkValue_partial (a b : Thing) (h : ∀ l, a ≠ .array l) : checkValue a b = .ok () ↔ a = b := by
  unfold checkValue
  split
  · exact absurd rfl (h _)
  · split_ifs with hab <;> simp [hab]

/-- Equal arrays of two or more elements do not pass. -/
theorem checkValue_violated {l : List ℤ} (h : 2 ≤ l.length) : checkValue (.array l) (.array l) = .error .valueError := by
  simp only [checkValue]
  rw [if_pos ⟨trivial, by omega⟩, if_neg (by rintro rfl; simp at h)]

theorem checkContains_iff {α : Type} [DecidableEq α] (e a : List α) : checkContains e a = .ok () ↔ e ⊆ a := by
  unfold checkContains
  split_ifs with h
  · simp only [List.all_eq_true, decide_eq_true_eq] at h
    exact ⟨fun _ x hx => h x hx, fun _ => rfl⟩
  · simp only [List.all_eq_true, decide_eq_true_eq] at h
    constructor
    · intro hh; simp at hh
    · intro hh; exact absurd (fun x hx => hh hx) h

theorem sort_eq_iff (a b : List String) :
    a.mergeSort (fun x y => decide (x ≤ y)) = b.mergeSort (fun x y => decide (x ≤ y)) ↔ a.Perm b := by
  constructor
  · intro h
    exact ((List.mergeSort_perm a _).symm.trans (List.Perm.of_eq h)).trans (List.mergeSort_perm b _)
  · intro h
    have hp := ((List.mergeSort_perm a (fun x y => decide (x ≤ y))).trans h).trans (List.mergeSort_perm b (fun x y => decide (x ≤ y))).symm
    have s : ∀ l : List String, (l.mergeSort (fun x y => decide (x ≤ y))).Pairwise (fun x y => x ≤ y) := by
      intro l
      have := List.pairwise_mergeSort (le := fun x y : String => decide (x ≤ y))
        (fun x y z h1 h2 => by simp only [decide_eq_true_eq] at *; exact String.le_trans h1 h2)
        (fun x y => by simp only [Bool.or_eq_true, decide_eq_true_eq]; exact String.le_total x y) l
      simpa using this
    exact hp.eq_of_pairwise (fun x y _ _ h1 h2 => String.le_antisymm h1 h2) (s a) (s b)

/-- **Arguments, exactly**: names pass if they are the parameters that are not ignored, in any order. -/
theorem checkArgs_names (params : Dict String ℤ) (l ignore : List String) :
    checkArgs params (.names l) ignore true = .ok () ↔ (params.keys.filter (· ∉ ignore)).Perm l := by
  have hk : Dict.keys (params.filter fun x => decide (x.1 ∉ ignore)) = params.keys.filter (· ∉ ignore) := by
    simp only [Dict.keys, List.filter_map]; rfl
  unfold checkArgs
  dsimp only
  rw [if_pos rfl, hk]
  split_ifs with h
  · exact ⟨fun _ => (sort_eq_iff _ _).1 h, fun _ => rfl⟩
  · constructor
    · intro hh; simp at hh
    · intro hh; exact absurd ((sort_eq_iff _ _).2 hh) h

/-- Not exactly, they pass if they are among them; so does one name. -/
theorem checkArgs_subset (params : Dict String ℤ) (l ignore : List String) :
    (checkArgs params (.names l) ignore false = .ok () ↔ ∀ n ∈ l, n ∈ params.keys ∧ n ∉ ignore) ∧
    ∀ s exact, checkArgs params (.one s) ignore exact = .ok () ↔ s ∈ params.keys ∧ s ∉ ignore := by
  have hk : ∀ n, n ∈ Dict.keys (params.filter fun x => decide (x.1 ∉ ignore)) ↔ n ∈ params.keys ∧ n ∉ ignore := by
    intro n
    simp only [Dict.keys, List.mem_map, List.mem_filter, decide_eq_true_eq]
    constructor
    · rintro ⟨x, ⟨h1, h2⟩, rfl⟩; exact ⟨⟨x, h1, rfl⟩, h2⟩
    · rintro ⟨⟨x, h1, rfl⟩, h2⟩; exact ⟨x, ⟨h1, h2⟩, rfl⟩
  constructor
  · unfold checkArgs
    dsimp only
    rw [if_neg (by simp)]
    split_ifs with h
    · simp only [List.all_eq_true, decide_eq_true_eq, hk] at h
      exact ⟨fun _ => h, fun _ => rfl⟩
    · simp only [List.all_eq_true, decide_eq_true_eq, hk] at h
      constructor
      · intro hh; simp at hh
      · intro hh; exact absurd hh h
  · intro s ex
    unfold checkArgs
    dsimp only
    split_ifs with h
    · exact ⟨fun _ => (hk s).1 h, fun _ => rfl⟩
    · constructor
      · intro hh; simp at hh
      · intro hh; exact absurd ((hk s).2 hh) h

theorem sameDict_iff {a b : Dict String ℤ} (ha : a.keys.Nodup) (hb : b.keys.Nodup) : sameDict a b = true ↔ ∀ k, a.get? k = b.get? k := by
  unfold sameDict
  simp only [Bool.and_eq_true, decide_eq_true_eq, List.all_eq_true]
  constructor
  · rintro ⟨hl, h⟩ k
    have hsub : a.keys ⊆ b.keys := by
      intro x hx
      obtain ⟨y, hy, rfl⟩ := List.mem_map.1 hx
      rw [← Dict.get?_isSome_iff, h y hy]; rfl
    have hperm : a.keys.Perm b.keys := (List.subperm_of_subset ha hsub).perm_of_length_le (by simp [Dict.keys, hl])
    cases hk : a.get? k with
    | some v => exact (h (k, v) (Dict.mem_of_get? a hk)).symm
    | none =>
      rw [Dict.get?_eq_none_iff] at hk
      symm; rw [Dict.get?_eq_none_iff]
      exact fun hh => hk (hperm.mem_iff.2 hh)
  · intro h
    have hmem : ∀ k, k ∈ a.keys ↔ k ∈ b.keys := by
      intro k; rw [← Dict.get?_isSome_iff, ← Dict.get?_isSome_iff, h k]
    have hperm : a.keys.Perm b.keys := (List.perm_ext_iff_of_nodup ha hb).2 hmem
    refine ⟨by simpa [Dict.keys] using hperm.length_eq, ?_⟩
    rintro ⟨k, v⟩ hx
    rw [← h k]; exact Dict.get?_of_mem a ha hx

theorem get?_filter (params : Dict String ℤ) (ignore : List String) (k : String) :
    Dict.get? (params.filter fun x => decide (x.1 ∉ ignore)) k = if k ∈ ignore then none else params.get? k := by
  induction params with
  | nil => simp [Dict.get?]
  | cons x l ih =>
    obtain ⟨n, v⟩ := x
    by_cases hn : n ∈ ignore
    · rw [List.filter_cons_of_neg (by simpa using hn), ih]
      split_ifs with hk
      · rfl
      · rw [Dict.get?, if_neg (by rintro rfl; exact hk hn)]
    · rw [List.filter_cons_of_pos (by simpa using hn), Dict.get?, Dict.get?, ih]
      split_ifs with h1 h2 h2
      · subst h1; exact absurd h2 hn
      · rfl
      · rfl
      · rfl

/-- **Arguments with defaults**: exactly, the parameters that are not ignored have these defaults and there are no others; not exactly,
the ones given have. -/
theorem checkArgs_defaults {params d : Dict String ℤ} (hp : params.keys.Nodup) (hd : d.keys.Nodup) (ignore : List String) :
    (checkArgs params (.defaults d) ignore true = .ok () ↔ ∀ k, d.get? k = if k ∈ ignore then none else params.get? k) ∧
    (checkArgs params (.defaults d) ignore false = .ok () ↔ ∀ k v, d.get? k = some v → k ∉ ignore ∧ params.get? k = some v) := by
  have hnd : (Dict.keys (params.filter fun x => decide (x.1 ∉ ignore))).Nodup := by
    have : Dict.keys (params.filter fun x => decide (x.1 ∉ ignore)) = params.keys.filter (· ∉ ignore) := by
      simp only [Dict.keys, List.filter_map]; rfl
    rw [this]; exact hp.filter _
  constructor
  · unfold checkArgs
    dsimp only
    rw [if_pos rfl]
    have hs := sameDict_iff hnd hd
    split_ifs with h
    · rw [hs] at h
      refine ⟨fun _ k => ?_, fun _ => rfl⟩
      rw [← h k, get?_filter]
    · rw [hs] at h
      constructor
      · intro hh; simp at hh
      · intro hh; exact absurd (fun k => by rw [hh k, get?_filter]) h
  · unfold checkArgs
    dsimp only
    rw [if_neg (by simp)]
    have key : (d.all fun x => decide (Dict.get? (params.filter fun x => decide (x.1 ∉ ignore)) x.1 = d.get? x.1)) = true ↔
        ∀ k v, d.get? k = some v → k ∉ ignore ∧ params.get? k = some v := by
      simp only [List.all_eq_true, decide_eq_true_eq, get?_filter]
      constructor
      · intro h k v hk
        have := h (k, v) (Dict.mem_of_get? d hk)
        dsimp only at this
        rw [hk] at this
        split_ifs at this with hi
        exact ⟨hi, this⟩
      · rintro h ⟨k, v⟩ hx
        have hk := Dict.get?_of_mem d hd hx
        obtain ⟨h1, h2⟩ := h k v hk
        dsimp only
        rw [if_neg h1, h2, hk]
    split_ifs with h
    · exact ⟨fun _ => key.1 h, fun _ => rfl⟩
    · constructor
      · intro hh; simp at hh
      · intro hh; exact absurd (key.2 hh) h

example : checkArgs [("self", 0), ("a", 1), ("b", 2)] (.defaults [("b", 2), ("a", 1)]) ["self"] true = .ok () ∧
    checkArgs [("self", 0), ("a", 1), ("b", 2)] (.defaults [("b", 3)]) ["self"] false = .error .valueError := by
  constructor <;> rfl

/-- The attribute that is found has the value; a value is found if there is one; distinct values are found under their own name. -/
theorem attributeName_spec (attrs : Dict String ℤ) (v : ℤ) :
    (∀ n, attributeName attrs v = .ok n → (n, v) ∈ attrs) ∧
    ((∃ n, attributeName attrs v = .ok n) ↔ ∃ n, (n, v) ∈ attrs) ∧
    ((attrs.map (·.2)).Nodup → ∀ n, (n, v) ∈ attrs → attributeName attrs v = .ok n) := by
  induction attrs with
  | nil => simp [attributeName]
  | cons x l ih =>
    obtain ⟨m, w⟩ := x
    simp only [attributeName]
    by_cases h : w = v
    · subst h
      simp only [if_true, Except.ok.injEq, List.mem_cons, Prod.mk.injEq, and_true]
      refine ⟨fun n hn => Or.inl hn.symm, ⟨fun _ => ⟨m, Or.inl rfl⟩, fun _ => ⟨m, rfl⟩⟩, ?_⟩
      intro hnd n hn
      simp only [List.map_cons, List.nodup_cons] at hnd
      rcases hn with hn | hn
      · exact hn.symm
      · exact absurd (List.mem_map.2 ⟨(n, w), hn, rfl⟩) hnd.1
    · simp only [if_neg h, List.mem_cons, Prod.mk.injEq, Ne.symm h, and_false, false_or]
      exact ⟨ih.1, ih.2.1, fun hnd => ih.2.2 (by simp only [List.map_cons, List.nodup_cons] at hnd; exact hnd.2)⟩

/-! ## Gluing -/

/-- What is glued after the names given: those and the earlier ones, none twice, in order. -/
theorem glue_spec (l : List String) : ∀ done : List String, done.Nodup →
    (glue done l).Nodup ∧ (∀ x, x ∈ glue done l ↔ x ∈ done ∨ x ∈ l) ∧ done <+: glue done l := by
  induction l with
  | nil => intro done h; exact ⟨h, by simp [glue], List.prefix_refl _⟩
  | cons n l ih =>
    intro done h
    rw [glue]
    split_ifs with hn
    · obtain ⟨h1, h2, h3⟩ := ih done h
      refine ⟨h1, fun x => ?_, h3⟩
      rw [h2, List.mem_cons]
      constructor
      · rintro (h | h); exacts [Or.inl h, Or.inr (Or.inr h)]
      · rintro (h | rfl | h); exacts [Or.inl h, Or.inl hn, Or.inr h]
    · have hnd : (done ++ [n]).Nodup := by
        rw [List.nodup_append]
        exact ⟨h, by simp, by intro a ha b hb; rw [List.mem_singleton] at hb; subst hb; rintro rfl; exact hn ha⟩
      obtain ⟨h1, h2, h3⟩ := ih _ hnd
      refine ⟨h1, fun x => ?_, (List.prefix_append _ _).trans h3⟩
      rw [h2]; simp [or_assoc]

/-- For a method `f` the names `f` and `f()` are glued, and with a prefix also those after it. -/
theorem glueMethods_spec (done : List String) (h : done.Nodup) (pre : Option String) (methods : List String) :
    (glueMethods done pre methods).Nodup ∧ ∀ x, x ∈ glueMethods done pre methods ↔ x ∈ done ∨ ∃ m ∈ methods,
      x = m ∨ x = m ++ "()" ∨ ∃ p, pre = some p ∧ (x = p ++ "." ++ m ∨ x = p ++ "." ++ m ++ "()") := by
  obtain ⟨h1, h2, -⟩ := glue_spec (methodForms pre methods) done h
  refine ⟨h1, fun x => ?_⟩
  rw [glueMethods, h2, methodForms, List.mem_flatMap]
  cases pre with
  | none => simp
  | some p => simp

/-- The attributes are glued whether or not they are asked for. -/
theorem addAttributes_violated (done options attributes : List String) (h : done.Nodup) : ∀ x ∈ attributes,
    x ∈ glueOptions done false options attributes := by
  intro x hx
  unfold glueOptions
  rw [(glue_spec attributes _ (glue_spec options done h).1).2.1]
  exact Or.inr hx

/-- A default is glued also for parameters without one. -/
theorem default_violated : "x_default" ∈ glueArguments [] true ["self", "x"] := by decide +kernel

/-! ## The table of variables -/

/-- All variables in the groups. -/
def members (g : Dict Str (List Str)) : List Str := g.flatMap (·.2)

/-- The groups belong together: no name twice, none empty, each variable in the group of its name. -/
structure Groups (g : Dict Str (List Str)) : Prop where
  nodup : g.keys.Nodup
  ne : ∀ x ∈ g, x.2 ≠ []
  name : ∀ x ∈ g, ∀ v ∈ x.2, groupName v = x.1

theorem members_set (g : Dict Str (List Str)) (k s : Str) :
    (members (g.set k ((g.get? k).getD [] ++ [s]))).Perm (s :: members g) := by
  induction g with
  | nil => simp [members, Dict.set, Dict.get?]
  | cons x g ih =>
    obtain ⟨k', l⟩ := x
    by_cases h : k' = k
    · subst h
      simp only [Dict.set, Dict.get?, if_true, members, List.flatMap_cons, Option.getD_some, List.append_assoc]
      exact List.perm_middle
    · simp only [Dict.set, Dict.get?, if_neg h, members, List.flatMap_cons]
      refine (List.Perm.append_left l ih).trans ?_
      exact List.perm_middle

theorem groups_set {g : Dict Str (List Str)} (h : Groups g) (s : Str) :
    Groups (g.set (groupName s) ((g.get? (groupName s)).getD [] ++ [s])) := by
  have hmem : ∀ (d : Dict Str (List Str)) (k : Str) (v : List Str), ∀ x ∈ d.set k v, x ∈ d ∨ x = (k, v) := by
    intro d k v
    induction d with
    | nil => intro x hx; simp [Dict.set] at hx; exact Or.inr hx
    | cons y d ih =>
      intro x hx
      obtain ⟨k', l⟩ := y
      simp only [Dict.set] at hx
      split_ifs at hx with hk
      · subst hk
        rcases List.mem_cons.1 hx with rfl | hx
        · exact Or.inr rfl
        · exact Or.inl (by simp [hx])
      · rcases List.mem_cons.1 hx with rfl | hx
        · exact Or.inl (by simp)
        · rcases ih x hx with h | h
          · exact Or.inl (by simp [h])
          · exact Or.inr h
  refine ⟨Dict.nodup_set g _ _ h.nodup, ?_, ?_⟩
  · intro x hx
    rcases hmem _ _ _ x hx with hx | rfl
    · exact h.ne x hx
    · simp
  · intro x hx v hv
    rcases hmem _ _ _ x hx with hx | rfl
    · exact h.name x hx v hv
    · rcases List.mem_append.1 hv with hv | hv
      · cases hg : g.get? (groupName s) with
        | none => rw [hg] at hv; simp at hv
        | some l =>
          rw [hg] at hv
          exact h.name _ (Dict.mem_of_get? g hg) v hv
      · rw [List.mem_singleton.1 hv]

theorem grouped_spec (l : List Str) : ∀ g : Dict Str (List Str), Groups g →
    Groups (grouped g l) ∧ (members (grouped g l)).Perm (members g ++ l) := by
  induction l with
  | nil => intro g h; exact ⟨h, by simp [grouped]⟩
  | cons s l ih =>
    intro g h
    rw [grouped]
    obtain ⟨h1, h2⟩ := ih _ (groups_set h s)
    refine ⟨h1, h2.trans ?_⟩
    refine ((members_set g _ s).append_right l).trans ?_
    exact List.perm_middle.symm

/-- The variables of a row. -/
def Row.vars : Row → List Str
  | .variable _ v => [v]
  | .group _ l => l

/-- The name shown. -/
def Row.shown : Row → Str
  | .variable n _ => n
  | .group n _ => n

theorem row_vars (n : Str) (l : List Str) : (row n l).vars = l := by
  unfold row; split <;> rfl

theorem row_shown (n : Str) (l : List Str) : (row n l).shown = n := by
  unfold row; split <;> rfl

/-- **The table** shows every variable exactly once, under the part of its name before the first colon, each such part once and in the
order of `sort`. -/
theorem table_spec (sort : List Str → List Str) (hs : ∀ l, (sort l).Perm l) (names : List Str) :
    ((table sort names).flatMap Row.vars).Perm names ∧ ((table sort names).map Row.shown).Nodup ∧
    (∃ l, (table sort names).map Row.shown = sort l) ∧
    ∀ r ∈ table sort names, r.vars ≠ [] ∧ ∀ v ∈ r.vars, groupName v = r.shown := by
  obtain ⟨hg, hp⟩ := grouped_spec (sort names) [] ⟨by simp [Dict.keys], by simp, by simp⟩
  set g := grouped [] (sort names) with hgdef
  have hshown : (table sort names).map Row.shown = sort g.keys := by
    simp only [table, ← hgdef, List.map_map]
    conv_rhs => rw [← List.map_id (sort g.keys)]
    exact List.map_congr_left fun n _ => row_shown _ _
  refine ⟨?_, ?_, ⟨_, hshown⟩, ?_⟩
  · have h1 : (table sort names).flatMap Row.vars = (sort g.keys).flatMap fun n => (g.get? n).getD [] := by
      simp only [table, ← hgdef, List.flatMap_map]
      congr 1; funext n; exact row_vars _ _
    rw [h1]
    have h2 : ((sort g.keys).flatMap fun n => (g.get? n).getD []).Perm (g.keys.flatMap fun n => (g.get? n).getD []) :=
      (hs g.keys).flatMap_right _
    have h3 : (g.keys.flatMap fun n => (g.get? n).getD []) = members g := by
      simp only [Dict.keys, members, List.flatMap_map]
      refine List.flatMap_congr fun x hx => ?_
      rw [Dict.get?_of_mem g hg.nodup (k := x.1) (v := x.2) hx]; rfl
    rw [h3] at h2
    exact h2.trans (hp.trans (by simpa [members] using hs names))
  · rw [hshown]; exact (hs _).nodup_iff.2 hg.nodup
  · intro r hr
    simp only [table, ← hgdef, List.mem_map] at hr
    obtain ⟨n, hn, rfl⟩ := hr
    rw [row_vars, row_shown]
    have hn' : n ∈ g.keys := (hs _).mem_iff.1 hn
    obtain ⟨⟨k, l⟩, hx, rfl⟩ := List.mem_map.1 hn'
    rw [Dict.get?_of_mem g hg.nodup hx]
    exact ⟨hg.ne _ hx, hg.name _ hx⟩

/-- A row is a group exactly if it has not one variable. -/
theorem row_kind (n : Str) (l : List Str) : (∃ m k, row n l = .group m k) ↔ l.length ≠ 1 := by
  match l with
  | [] => simp [row]
  | [v] => simp [row]
  | a :: b :: r => simp [row]

/-- A variable that is alone in its group is shown under the name of the group: `aircraft:wing:area` alone is shown as `aircraft`. -/
theorem lone_violated : ∃ names : List Str, ∃ r ∈ table id names, ∃ n v, r = .variable n v ∧ n ≠ v :=
  ⟨["aircraft:wing:area".toList], .variable "aircraft".toList "aircraft:wing:area".toList, by decide +kernel, _, _, rfl, by decide +kernel⟩

example : table id ["a:x".toList, "a:y".toList, "b".toList] =
    [.group "a".toList ["a:x".toList, "a:y".toList], .variable "b".toList "b".toList] := by decide +kernel

end Verif.DocTape
