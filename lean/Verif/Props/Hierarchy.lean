import Verif.Model.Hierarchy
import Verif.Lemmas.Dict
import Mathlib.Tactic.Tauto
import Mathlib.Tactic.Set
import Mathlib.Tactic.ByContra

/-! # C08: merging variable hierarchies -/

namespace Verif

/-- The value of the attribute path `k1.k2.….kn` below class `a`. -/
def resolve (h : HHeap) : Nat → List String → Option String
  | _, [] => none
  | a, [k] => match Dict.get? (h a) k with
    | some (.str s) => some s
    | _ => none
  | a, k :: k' :: ks => match Dict.get? (h a) k with
    | some (.cls r) => resolve h r (k' :: ks)
    | _ => none

/-- Naming convention of the hierarchies: a name is used either for variables or for inner classes (UPPER_CASE
against CamelCase), never for both. -/
def Typed (K : String → Bool) (h : HHeap) : Prop :=
  ∀ n k v, Dict.get? (h n) k = some v → (∃ s, v = .str s ∧ K k = false) ∨ (∃ r, v = .cls r ∧ K k = true)

def HeapLe (h h' : HHeap) : Prop := ∀ n k v, Dict.get? (h n) k = some v → Dict.get? (h' n) k = some v

theorem HeapLe.refl (h : HHeap) : HeapLe h h := fun _ _ _ e => e
theorem HeapLe.trans {a b c : HHeap} (h1 : HeapLe a b) (h2 : HeapLe b c) : HeapLe a c :=
  fun n k v e => h2 n k v (h1 n k v e)

theorem resolve_mono {h h' : HHeap} (hl : HeapLe h h') (p : List String) :
    ∀ a v, resolve h a p = some v → resolve h' a p = some v := by
  induction p with
  | nil => intro a v e; simp [resolve] at e
  | cons k ks ih =>
    intro a v e
    cases ks with
    | nil =>
      simp only [resolve] at e ⊢
      cases hg : Dict.get? (h a) k with
      | none => simp [hg] at e
      | some x => rw [hl a k x hg]; rw [hg] at e; exact e
    | cons k' ks =>
      simp only [resolve] at e ⊢
      cases hg : Dict.get? (h a) k with
      | none => simp [hg] at e
      | some x =>
        rw [hl a k x hg]; rw [hg] at e
        cases x with
        | str s => simp at e
        | other => simp at e
        | cls r => exact ih r v e

theorem mem_varNames (d : Dict String HAttr) (hn : (Dict.keys d).Nodup) (k : String) :
    k ∈ varNames d ↔ ∃ s, Dict.get? d k = some (.str s) := by
  unfold varNames
  rw [List.mem_filterMap]
  constructor
  · rintro ⟨⟨k', v⟩, hp, hv⟩
    cases v <;> simp at hv
    subst hv; exact ⟨_, Dict.get?_of_mem d hn hp⟩
  · rintro ⟨s, hs⟩; exact ⟨_, Dict.mem_of_get? d hs, rfl⟩

theorem mem_innerNames (d : Dict String HAttr) (hn : (Dict.keys d).Nodup) (k : String) :
    k ∈ innerNames d ↔ ∃ r, Dict.get? d k = some (.cls r) := by
  unfold innerNames
  rw [List.mem_filterMap]
  constructor
  · rintro ⟨⟨k', v⟩, hp, hv⟩
    cases v <;> simp at hv
    subst hv; exact ⟨_, Dict.get?_of_mem d hn hp⟩
  · rintro ⟨s, hs⟩; exact ⟨_, Dict.mem_of_get? d hs, rfl⟩

/-- Well-formed heaps: dictionaries have distinct keys. -/
def HWf (h : HHeap) : Prop := ∀ n, (Dict.keys (h n)).Nodup

/-- `mergeAttrs` with names absent from the base: only adds, and adds exactly the named attributes. -/
theorem mergeAttrs_spec (base m : Nat) (names : List String) :
    ∀ h : HHeap, HWf h → (∀ k ∈ names, ∀ v, Dict.get? (h base) k = some v → Dict.get? (h m) k = some v) →
      HWf (mergeAttrs h base m names) ∧ HeapLe h (mergeAttrs h base m names) ∧
      (∀ k ∈ names, ∀ v, Dict.get? (h m) k = some v → Dict.get? (mergeAttrs h base m names base) k = some v) ∧
      (∀ n k v, Dict.get? (mergeAttrs h base m names n) k = some v →
        Dict.get? (h n) k = some v ∨ (n = base ∧ k ∈ names ∧ Dict.get? (h m) k = some v)) := by
  induction names with
  | nil =>
    intro h hw _
    refine ⟨hw, HeapLe.refl _, ?_, ?_⟩
    · intro k hk; cases hk
    · intro n k v e; exact Or.inl e
  | cons k ks ih =>
    intro h hw hd
    cases hk : Dict.get? (h m) k with
    | none =>
      have e : mergeAttrs h base m (k :: ks) = mergeAttrs h base m ks := by
        simp [mergeAttrs, hk]
      obtain ⟨i1, i2, i3, i4⟩ := ih h hw (fun k' hk' => hd k' (List.mem_cons_of_mem _ hk'))
      rw [e]
      refine ⟨i1, i2, ?_, ?_⟩
      · intro k' hk' v hv
        rcases List.mem_cons.1 hk' with rfl | h'
        · rw [hk] at hv; cases hv
        · exact i3 k' h' v hv
      · intro n k' v e
        rcases i4 n k' v e with h' | ⟨a, b, c⟩
        · exact Or.inl h'
        · exact Or.inr ⟨a, List.mem_cons_of_mem _ b, c⟩
    | some x =>
      let g : HHeap := fun n => if n = base then Dict.set (h base) k x else h n
      have e : mergeAttrs h base m (k :: ks) = mergeAttrs g base m ks := by
        simp [mergeAttrs, hk, g]
      have hgw : HWf g := by
        intro n; simp only [g]; split
        · exact Dict.nodup_set _ _ _ (hw base)
        · exact hw n
      have hle : HeapLe h g := by
        intro n k' v hv
        simp only [g]
        by_cases hn : n = base
        · subst hn; rw [if_pos rfl, Dict.get?_set]
          by_cases hkk : k = k'
          · subst hkk; rw [if_pos rfl]
            have := hd k List.mem_cons_self v hv
            rw [hk] at this; exact this
          · rw [if_neg hkk]; exact hv
        · rw [if_neg hn]; exact hv
      have hgm : ∀ k' v, Dict.get? (g m) k' = some v → Dict.get? (h m) k' = some v := by
        intro k' v hv
        simp only [g] at hv
        by_cases hn : m = base
        · rw [if_pos hn, Dict.get?_set] at hv
          by_cases hkk : k = k'
          · subst hkk; rw [if_pos rfl] at hv; rw [hk]; exact hv
          · rw [if_neg hkk] at hv; rw [hn]; exact hv
        · rw [if_neg hn] at hv; exact hv
      have hd' : ∀ k' ∈ ks, ∀ v, Dict.get? (g base) k' = some v → Dict.get? (g m) k' = some v := by
        intro k' hk' v hv
        simp only [g, if_true] at hv
        rw [Dict.get?_set] at hv
        by_cases hkk : k = k'
        · subst hkk; rw [if_pos rfl] at hv; cases hv
          exact hle m k _ hk
        · rw [if_neg hkk] at hv
          exact hle m k' v (hd k' (List.mem_cons_of_mem _ hk') v hv)
      obtain ⟨i1, i2, i3, i4⟩ := ih g hgw hd'
      rw [e]
      refine ⟨i1, hle.trans i2, ?_, ?_⟩
      · intro k' hk' v hv
        rcases List.mem_cons.1 hk' with rfl | h'
        · rw [hk] at hv; cases hv
          exact i2 base k' _ (by simp [g])
        · exact i3 k' h' v (hle m k' v hv)
      · intro n k' v ev
        rcases i4 n k' v ev with h' | ⟨a, b, c⟩
        · simp only [g] at h'
          by_cases hn : n = base
          · rw [if_pos hn, Dict.get?_set] at h'
            by_cases hkk : k = k'
            · subst hkk; rw [if_pos rfl] at h'; cases h'
              exact Or.inr ⟨hn, List.mem_cons_self, hk⟩
            · rw [if_neg hkk] at h'; subst hn; exact Or.inl h'
          · rw [if_neg hn] at h'; exact Or.inl h'
        · exact Or.inr ⟨a, List.mem_cons_of_mem _ b, hgm k' v c⟩

/-- One merge step, for every pair of classes and every fuel: it only adds attributes (to any class of the heap),
keeps the naming convention, and makes every path of `m` available below `base` with the same value. -/
theorem mergeRec_spec (K : String → Bool) (n : Nat) :
    ∀ (h h' : HHeap) (base m : Nat), HWf h → Typed K h → mergeRec n h base m = .ok h' →
      HWf h' ∧ Typed K h' ∧ HeapLe h h' ∧
      ∀ p v, resolve h m p = some v → resolve h' base p = some v := by
  induction n with
  | zero => intro h h' base m _ _ e; simp [mergeRec] at e
  | succ n ih =>
    intro h h' base m hw ht e
    simp only [mergeRec] at e
    split at e
    rotate_left
    · cases e
    rename_i hagree
    set newVars := (varNames (h m)).filter (fun k => !decide (k ∈ varNames (h base))) with hnv
    set newInners := (innerNames (h m)).filter (fun k => !decide (k ∈ innerNames (h base))) with hni
    set h1 := mergeAttrs h base m newVars with hh1
    -- names to add are absent from the base
    have absV : ∀ k ∈ newVars, ∀ v, Dict.get? (h base) k = some v → Dict.get? (h m) k = some v := by
      intro k hk v hv
      exfalso
      obtain ⟨a, b⟩ := List.mem_filter.1 hk
      obtain ⟨s, hs⟩ := (mem_varNames _ (hw m) k).1 a
      have hK : K k = false := by
        rcases ht m k _ hs with ⟨_, _, h2⟩ | ⟨_, h1, _⟩
        · exact h2
        · cases h1
      rcases ht base k v hv with ⟨s', rfl, _⟩ | ⟨r, rfl, h2⟩
      · have := (mem_varNames _ (hw base) k).2 ⟨s', hv⟩
        simp [this] at b
      · rw [hK] at h2; cases h2
    obtain ⟨a1, a2, a3, a4⟩ := mergeAttrs_spec base m newVars h hw absV
    have t1 : Typed K h1 := by
      intro n' k v hv
      rcases a4 n' k v hv with h2 | ⟨_, _, h2⟩
      · exact ht _ _ _ h2
      · exact ht _ _ _ h2
    have absI : ∀ k ∈ newInners, ∀ v, Dict.get? (h1 base) k = some v → Dict.get? (h1 m) k = some v := by
      intro k hk v hv
      exfalso
      obtain ⟨a, b⟩ := List.mem_filter.1 hk
      obtain ⟨s, hs⟩ := (mem_innerNames _ (hw m) k).1 a
      have hK : K k = true := by
        rcases ht m k _ hs with ⟨_, h1, _⟩ | ⟨_, _, h2⟩
        · cases h1
        · exact h2
      rcases a4 base k v hv with h2 | ⟨_, h2, h3⟩
      · rcases ht base k v h2 with ⟨s', rfl, h4⟩ | ⟨r, rfl, _⟩
        · rw [hK] at h4; cases h4
        · have := (mem_innerNames _ (hw base) k).2 ⟨r, h2⟩
          simp [this] at b
      · obtain ⟨c, _⟩ := List.mem_filter.1 h2
        obtain ⟨s2, hs2⟩ := (mem_varNames _ (hw m) k).1 c
        rw [hs] at hs2; cases hs2
    obtain ⟨b1, b2, b3, b4⟩ := mergeAttrs_spec base m newInners h1 a1 absI
    set h2 := mergeAttrs h1 base m newInners with hh2
    have t2 : Typed K h2 := by
      intro n' k v hv
      rcases b4 n' k v hv with h3 | ⟨_, _, h3⟩
      · exact t1 _ _ _ h3
      · exact t1 _ _ _ h3
    have le2 : HeapLe h h2 := a2.trans b2
    -- the recursive part
    have fold : ∀ (ks : List String) (hc hd : HHeap), HWf hc → Typed K hc → HeapLe h2 hc →
        ks.foldlM (fun h k => match Dict.get? (h base) k, Dict.get? (h m) k with
          | some (.cls x), some (.cls y) => mergeRec n h x y
          | _, _ => .error .typeError) hc = .ok hd →
        HWf hd ∧ Typed K hd ∧ HeapLe hc hd ∧
        ∀ k ∈ ks, ∀ x y, Dict.get? (h base) k = some (.cls x) → Dict.get? (h m) k = some (.cls y) →
          ∀ p v, resolve h y p = some v → resolve hd x p = some v := by
      intro ks
      induction ks with
      | nil =>
        intro hc hd w t _ e
        simp [pure, Except.pure] at e; subst e
        exact ⟨w, t, HeapLe.refl _, by intro k hk; cases hk⟩
      | cons k ks ihk =>
        intro hc hd w t le e
        rw [List.foldlM_cons] at e
        cases hx : Dict.get? (hc base) k with
        | none => simp [hx, bind, Except.bind] at e
        | some vx =>
          cases vx with
          | str s => simp [hx, bind, Except.bind] at e
          | other => simp [hx, bind, Except.bind] at e
          | cls x =>
            cases hy : Dict.get? (hc m) k with
            | none => simp [hx, hy, bind, Except.bind] at e
            | some vy =>
              cases vy with
              | str s => simp [hx, hy, bind, Except.bind] at e
              | other => simp [hx, hy, bind, Except.bind] at e
              | cls y =>
                simp only [hx, hy, bind, Except.bind] at e
                cases hm : mergeRec n hc x y with
                | error err => simp [hm] at e
                | ok he =>
                  simp only [hm] at e
                  obtain ⟨c1, c2, c3, c4⟩ := ih hc he x y w t hm
                  obtain ⟨d1, d2, d3, d4⟩ := ihk he hd c1 c2 (le.trans c3) e
                  refine ⟨d1, d2, c3.trans d3, ?_⟩
                  intro k' hk' x' y' hx' hy' p v hp
                  rcases List.mem_cons.1 hk' with rfl | hk'
                  · have e1 := le _ _ _ (le2 _ _ _ hx')
                    have e2 := le _ _ _ (le2 _ _ _ hy')
                    rw [hx] at e1; rw [hy] at e2
                    cases e1; cases e2
                    exact resolve_mono d3 p _ v (c4 p v (resolve_mono (le2.trans le) p _ v hp))
                  · exact d4 k' hk' x' y' hx' hy' p v hp
    obtain ⟨f1, f2, f3, f4⟩ := fold _ h2 h' b1 t2 (HeapLe.refl _) e
    have le' : HeapLe h h' := le2.trans f3
    refine ⟨f1, f2, le', ?_⟩
    intro p v hp
    cases p with
    | nil => simp [resolve] at hp
    | cons k ks =>
      cases ks with
      | nil =>
        simp only [resolve] at hp ⊢
        cases hg : Dict.get? (h m) k with
        | none => simp [hg] at hp
        | some x =>
          cases x with
          | cls r => simp [hg] at hp
          | other => simp [hg] at hp
          | str s =>
            simp [hg] at hp; subst hp
            by_cases hb : k ∈ varNames (h base)
            · have hmem : k ∈ (varNames (h base)).filter (fun k => decide (k ∈ varNames (h m))) := by
                rw [List.mem_filter]
                exact ⟨hb, by simpa using (mem_varNames _ (hw m) k).2 ⟨s, hg⟩⟩
              have := List.all_eq_true.1 hagree k hmem
              simp only [decide_eq_true_eq] at this
              rw [hg] at this
              rw [le' base k _ this]
            · have hmem : k ∈ newVars := by
                rw [hnv, List.mem_filter]
                exact ⟨(mem_varNames _ (hw m) k).2 ⟨s, hg⟩, by simp [hb]⟩
              rw [(b2.trans f3) base k _ (a3 k hmem _ hg)]
      | cons k' ks =>
        simp only [resolve] at hp ⊢
        cases hg : Dict.get? (h m) k with
        | none => simp [hg] at hp
        | some x =>
          cases x with
          | str s => simp [hg] at hp
          | other => simp [hg] at hp
          | cls r =>
            simp only [hg] at hp
            by_cases hb : k ∈ innerNames (h base)
            · obtain ⟨x, hx⟩ := (mem_innerNames _ (hw base) k).1 hb
              rw [le' base k _ hx]
              have hmem : k ∈ overlap (h base) (h m) := by
                unfold overlap; rw [List.mem_filter]
                exact ⟨hb, by simpa using (mem_innerNames _ (hw m) k).2 ⟨r, hg⟩⟩
              exact f4 k hmem x r hx hg _ v hp
            · have hmem : k ∈ newInners := by
                rw [hni, List.mem_filter]
                exact ⟨(mem_innerNames _ (hw m) k).2 ⟨r, hg⟩, by simp [hb]⟩
              have := f3 base k _ (b3 k hmem _ (a2 m k _ hg))
              rw [this]
              exact resolve_mono le' _ _ v hp

theorem pickBase_mem (mro : MroInfo) (hs : List Nat) :
    ∀ acc b, pickBase mro hs acc = .ok (some b) → b ∈ hs ∨ ∃ t, acc = some (t, b) := by
  induction hs with
  | nil =>
    intro acc b h
    simp [pickBase] at h
    obtain ⟨t, ht⟩ := h
    exact Or.inr ⟨t, ht⟩
  | cons a hs ih =>
    intro acc b h
    cases acc with
    | none =>
      simp only [pickBase] at h
      cases hsup : mro.super a with
      | none =>
        simp only [hsup] at h
        rcases ih none b h with h' | ⟨t, h'⟩
        · exact Or.inl (List.mem_cons_of_mem _ h')
        · cases h'
      | some s =>
        simp only [hsup] at h
        rcases ih _ b h with h' | ⟨t, h'⟩
        · exact Or.inl (List.mem_cons_of_mem _ h')
        · cases h'; exact Or.inl List.mem_cons_self
    | some tb =>
      obtain ⟨t, b'⟩ := tb
      simp only [pickBase] at h
      have : pickBase mro hs (some (t, b')) = .ok (some b) := by
        cases hsup : mro.super a with
        | none => simpa only [hsup] using h
        | some s =>
          simp only [hsup] at h
          split at h
          · cases h
          · exact h
      rcases ih _ b this with h' | ⟨t', h'⟩
      · exact Or.inl (List.mem_cons_of_mem _ h')
      · exact Or.inr ⟨t', h'⟩

/-- **C08 (partial).** For hierarchies that follow the naming convention, `merge_hierarchies` of any number of
hierarchies of any depth, when it succeeds, contains every attribute path of every input with its value; nothing
any class had before is changed or removed; and the inputs did not contradict each other on any path.  Missing
from the full statement: names used for a variable in one input and for a class in another
(`mergeHier_kind_violated`), and leaving the inputs alone (`mergeHier_mutates_violated`). -/
theorem mergeHier_contains_partial (K : String → Bool) (mro : MroInfo) (fuel : Nat) (h h' : HHeap)
    (hs : List Nat) (base : Nat) (hw : HWf h) (ht : Typed K h)
    (e : mergeHier mro fuel h hs = .ok (h', base)) :
    (∀ m ∈ hs, ∀ p v, resolve h m p = some v → resolve h' base p = some v) ∧
    (∀ a p v, resolve h a p = some v → resolve h' a p = some v) ∧
    (∀ a ∈ hs, ∀ b ∈ hs, ∀ p v w, resolve h a p = some v → resolve h b p = some w → v = w) := by
  have fold : ∀ (l : List Nat) (hc : HHeap), HWf hc → Typed K hc → HeapLe h hc →
      ∀ hd, l.foldlM (fun h m => mergeRec fuel h base m) hc = .ok hd →
      HeapLe hc hd ∧ ∀ m ∈ l, ∀ p v, resolve h m p = some v → resolve hd base p = some v := by
    intro l
    induction l with
    | nil =>
      intro hc _ _ _ hd e
      simp [pure, Except.pure] at e; subst e
      exact ⟨HeapLe.refl _, by intro m hm; cases hm⟩
    | cons m l ih =>
      intro hc w t le hd e
      rw [List.foldlM_cons] at e
      cases hm : mergeRec fuel hc base m with
      | error err => simp [hm, bind, Except.bind] at e
      | ok he =>
        simp only [hm, bind, Except.bind] at e
        obtain ⟨c1, c2, c3, c4⟩ := mergeRec_spec K fuel hc he base m w t hm
        obtain ⟨d1, d2⟩ := ih he c1 c2 (le.trans c3) hd e
        refine ⟨c3.trans d1, ?_⟩
        intro m' hm' p v hp
        rcases List.mem_cons.1 hm' with rfl | hm'
        · exact resolve_mono d1 p _ v (c4 p v (resolve_mono le p _ v hp))
        · exact d2 m' hm' p v hp
  have main : ∃ hd, hs.foldlM (fun h m => mergeRec fuel h base m) h = .ok hd ∧ hd = h' := by
    unfold mergeHier at e
    cases h1 : compareAll mro fuel h hs with
    | error err => simp [h1, bind, Except.bind] at e
    | ok _ =>
      cases h2 : pickBase mro hs none with
      | error err => simp [h1, h2, bind, Except.bind] at e
      | ok b =>
        cases b with
        | some b =>
          simp only [h1, h2, bind, Except.bind] at e
          cases h3 : hs.foldlM (fun h m => mergeRec fuel h b m) h with
          | error err => simp [h3] at e
          | ok hd =>
            simp [h3, pure, Except.pure] at e
            obtain ⟨rfl, rfl⟩ := e
            exact ⟨hd, h3, rfl⟩
        | none =>
          cases hs with
          | nil => simp [h1, h2, bind, Except.bind] at e
          | cons a l =>
            simp only [h1, h2, bind, Except.bind] at e
            cases h3 : (a :: l).foldlM (fun h m => mergeRec fuel h a m) h with
            | error err => simp [h3] at e
            | ok hd =>
              simp [h3, pure, Except.pure] at e
              obtain ⟨rfl, rfl⟩ := e
              exact ⟨hd, h3, rfl⟩
  obtain ⟨hd, h3, rfl⟩ := main
  obtain ⟨f1, f2⟩ := fold hs h hw ht (HeapLe.refl _) hd h3
  refine ⟨f2, fun a p v hp => resolve_mono f1 p a v hp, ?_⟩
  intro a ha b hb p v w hv hw'
  have := f2 a ha p v hv
  rw [f2 b hb p w hw'] at this
  exact (Option.some.inj this).symm

/-- **C08 (the result is an input).** The returned hierarchy is always one of the inputs, as an object. -/
theorem mergeHier_returns_input (mro : MroInfo) (fuel : Nat) (h h' : HHeap) (hs : List Nat) (base : Nat)
    (e : mergeHier mro fuel h hs = .ok (h', base)) : base ∈ hs := by
  unfold mergeHier at e
  cases h1 : compareAll mro fuel h hs with
  | error err => simp [h1, bind, Except.bind] at e
  | ok _ =>
    cases h2 : pickBase mro hs none with
    | error err => simp [h1, h2, bind, Except.bind] at e
    | ok b =>
      cases b with
      | some b =>
        simp only [h1, h2, bind, Except.bind] at e
        cases h3 : hs.foldlM (fun h m => mergeRec fuel h b m) h with
        | error err => simp [h3] at e
        | ok hd =>
          simp [h3, pure, Except.pure] at e
          obtain ⟨_, rfl⟩ := e
          rcases pickBase_mem mro hs none b h2 with h' | ⟨t, h'⟩
          · exact h'
          · cases h'
      | none =>
        cases hs with
        | nil => simp [h1, h2, bind, Except.bind] at e
        | cons a l =>
          simp only [h1, h2, bind, Except.bind] at e
          cases h3 : (a :: l).foldlM (fun h m => mergeRec fuel h a m) h with
          | error err => simp [h3] at e
          | ok hd =>
            simp [h3, pure, Except.pure] at e
            obtain ⟨_, rfl⟩ := e
            exact List.mem_cons_self

/-- **C08 (conflict detection).** If the comparison accepts two hierarchies, they agree on every common path; if it
raises `ValueError`, some common path has two different values. -/
theorem compareRec_spec (h : HHeap) (hw : HWf h) (n : Nat) : ∀ a b,
    (compareRec h n a b = .ok () → ∀ p v w, resolve h a p = some v → resolve h b p = some w → v = w) ∧
    (compareRec h n a b = .error .valueError →
      ∃ p v w, resolve h a p = some v ∧ resolve h b p = some w ∧ v ≠ w) := by
  induction n with
  | zero => intro a b; simp [compareRec]
  | succ n ih =>
    intro a b
    have fold : ∀ ks : List String,
        (ks.foldlM (fun (_ : Unit) k =>
          match Dict.get? (h a) k, Dict.get? (h b) k with
          | some (.cls x), some (.cls y) => compareRec h n x y
          | _, _ => .error .typeError) () = .ok () →
          ∀ k ∈ ks, ∀ x y, Dict.get? (h a) k = some (.cls x) → Dict.get? (h b) k = some (.cls y) →
            compareRec h n x y = .ok ()) ∧
        (ks.foldlM (fun (_ : Unit) k =>
          match Dict.get? (h a) k, Dict.get? (h b) k with
          | some (.cls x), some (.cls y) => compareRec h n x y
          | _, _ => .error .typeError) () = .error .valueError →
          ∃ k x y, Dict.get? (h a) k = some (.cls x) ∧ Dict.get? (h b) k = some (.cls y) ∧
            compareRec h n x y = .error .valueError) := by
      intro ks
      induction ks with
      | nil => exact ⟨fun _ k hk => absurd hk (by simp), fun e => absurd e (by simp [pure, Except.pure])⟩
      | cons k ks ihk =>
        rw [List.foldlM_cons]
        cases hx : Dict.get? (h a) k with
        | none => simp [hx, bind, Except.bind]
        | some vx =>
          cases vx with
          | str s => simp [hx, bind, Except.bind]
          | other => simp [hx, bind, Except.bind]
          | cls x =>
            cases hy : Dict.get? (h b) k with
            | none => simp [hx, hy, bind, Except.bind]
            | some vy =>
              cases vy with
              | str s => simp [hx, hy, bind, Except.bind]
              | other => simp [hx, hy, bind, Except.bind]
              | cls y =>
                cases hc : compareRec h n x y with
                | error err =>
                  simp only [hx, hy, hc, bind, Except.bind]
                  refine ⟨fun e => absurd e (by simp), fun e => ?_⟩
                  cases e
                  exact ⟨k, x, y, hx, hy, hc⟩
                | ok u =>
                  simp only [hx, hy, hc, bind, Except.bind]
                  refine ⟨fun e k' hk' x' y' hx' hy' => ?_, fun e => ihk.2 e⟩
                  rcases List.mem_cons.1 hk' with rfl | hk'
                  · rw [hx] at hx'; rw [hy] at hy'; cases hx'; cases hy'; exact hc
                  · exact ihk.1 e k' hk' x' y' hx' hy'
    constructor
    · intro e p v w hv hw'
      simp only [compareRec] at e
      split at e
      rotate_left
      · cases e
      rename_i hagree
      cases p with
      | nil => simp [resolve] at hv
      | cons k ks =>
        cases ks with
        | nil =>
          simp only [resolve] at hv hw'
          cases ha : Dict.get? (h a) k with
          | none => simp [ha] at hv
          | some va =>
            cases hb : Dict.get? (h b) k with
            | none => simp [hb] at hw'
            | some vb =>
              cases va <;> cases vb <;> simp [ha, hb] at hv hw'
              subst hv; subst hw'
              have hmem : k ∈ (varNames (h a)).filter (fun k => decide (k ∈ varNames (h b))) := by
                rw [List.mem_filter]
                exact ⟨(mem_varNames _ (hw a) k).2 ⟨_, ha⟩, by simpa using (mem_varNames _ (hw b) k).2 ⟨_, hb⟩⟩
              have := List.all_eq_true.1 hagree k hmem
              simp [ha, hb] at this
              exact this
        | cons k' ks =>
          simp only [resolve] at hv hw'
          cases ha : Dict.get? (h a) k with
          | none => simp [ha] at hv
          | some va =>
            cases hb : Dict.get? (h b) k with
            | none => simp [hb] at hw'
            | some vb =>
              cases va <;> cases vb <;> simp [ha, hb] at hv hw'
              rename_i x y
              have hmem : k ∈ overlap (h a) (h b) := by
                unfold overlap; rw [List.mem_filter]
                exact ⟨(mem_innerNames _ (hw a) k).2 ⟨_, ha⟩, by simpa using (mem_innerNames _ (hw b) k).2 ⟨_, hb⟩⟩
              exact (ih x y).1 ((fold _).1 e k hmem x y ha hb) _ v w hv hw'
    · intro e
      simp only [compareRec] at e
      split at e
      · obtain ⟨k, x, y, hx, hy, hc⟩ := (fold _).2 e
        obtain ⟨p, v, w, hv, hw', hne⟩ := (ih x y).2 hc
        cases p with
        | nil => simp [resolve] at hv
        | cons k' ks => exact ⟨k :: k' :: ks, v, w, by simpa [resolve, hx] using hv, by simpa [resolve, hy] using hw', hne⟩
      · rename_i hagree
        have : ∃ k, k ∈ (varNames (h a)).filter (fun k => decide (k ∈ varNames (h b))) ∧
            Dict.get? (h a) k ≠ Dict.get? (h b) k := by
          by_contra hcon
          apply hagree
          unfold varsAgree
          rw [List.all_eq_true]
          intro k hk
          by_contra hne
          exact hcon ⟨k, hk, by simpa using hne⟩
        obtain ⟨k, hk, hne⟩ := this
        obtain ⟨h1, h2⟩ := List.mem_filter.1 hk
        obtain ⟨s, hs⟩ := (mem_varNames _ (hw a) k).1 h1
        obtain ⟨t, hT⟩ := (mem_varNames _ (hw b) k).1 (by simpa using h2)
        refine ⟨[k], s, t, by simp [resolve, hs], by simp [resolve, hT], ?_⟩
        rintro rfl; exact hne (by rw [hs, hT])

/-- A heap given by a list of class dictionaries. -/
def heapOf (l : List (Dict String HAttr)) : HHeap := fun n => (l[n]?).getD []

def noMro : MroInfo := ⟨fun _ => none, fun _ => []⟩

/-- **C08 (superclasses).** `merge_hierarchies` refuses, with `ValueError`, any list that contains hierarchies
derived from different superclasses, and otherwise builds on the first hierarchy that is derived from one. -/
theorem pickBase_spec (mro : MroInfo) (hs : List Nat) :
    ((∃ a ∈ hs, ∃ b ∈ hs, ∃ s t, mro.super a = some s ∧ mro.super b = some t ∧ s ≠ t) →
      pickBase mro hs none = .error .valueError) ∧
    ((∀ a ∈ hs, ∀ b ∈ hs, ∀ s t, mro.super a = some s → mro.super b = some t → s = t) →
      pickBase mro hs none = .ok (hs.find? (fun a => (mro.super a).isSome))) := by
  have acc1 : ∀ (hs : List Nat) t b, (∃ a ∈ hs, ∃ s, mro.super a = some s ∧ s ≠ t) →
      pickBase mro hs (some (t, b)) = .error .valueError := by
    intro hs
    induction hs with
    | nil => rintro t b ⟨a, ha, _⟩; cases ha
    | cons x hs ih =>
      rintro t b ⟨a, ha, s, hs1, hs2⟩
      simp only [pickBase]
      cases hx : mro.super x with
      | none =>
        rcases List.mem_cons.1 ha with rfl | ha
        · rw [hx] at hs1; cases hs1
        · exact ih t b ⟨a, ha, s, hs1, hs2⟩
      | some u =>
        by_cases hu : u = t
        · subst hu
          rcases List.mem_cons.1 ha with rfl | ha
          · rw [hx] at hs1; cases hs1; exact absurd rfl hs2
          · simpa using ih u b ⟨a, ha, s, hs1, hs2⟩
        · simp [hu]
  have acc2 : ∀ (hs : List Nat) t b, (∀ a ∈ hs, ∀ s, mro.super a = some s → s = t) →
      pickBase mro hs (some (t, b)) = .ok (some b) := by
    intro hs
    induction hs with
    | nil => intro t b _; rfl
    | cons x hs ih =>
      intro t b h
      simp only [pickBase]
      have := ih t b (fun a ha => h a (List.mem_cons_of_mem _ ha))
      cases hx : mro.super x with
      | none => simpa using this
      | some u => simpa [h x List.mem_cons_self u hx] using this
  induction hs with
  | nil => exact ⟨(by rintro ⟨a, ha, _⟩; cases ha), fun _ => rfl⟩
  | cons x hs ih =>
    cases hx : mro.super x with
    | none =>
      have e : pickBase mro (x :: hs) none = pickBase mro hs none := by simp [pickBase, hx]
      rw [e]
      refine ⟨?_, ?_⟩
      · rintro ⟨a, ha, b, hb, s, t, h1, h2, h3⟩
        refine ih.1 ⟨a, ?_, b, ?_, s, t, h1, h2, h3⟩
        · rcases List.mem_cons.1 ha with rfl | h
          · rw [hx] at h1; cases h1
          · exact h
        · rcases List.mem_cons.1 hb with rfl | h
          · rw [hx] at h2; cases h2
          · exact h
      · intro h
        rw [ih.2 (fun a ha b hb => h a (List.mem_cons_of_mem _ ha) b (List.mem_cons_of_mem _ hb))]
        simp [hx]
    | some u =>
      have e : pickBase mro (x :: hs) none = pickBase mro hs (some (u, x)) := by simp [pickBase, hx]
      rw [e]
      refine ⟨?_, ?_⟩
      · rintro ⟨a, ha, b, hb, s, t, h1, h2, h3⟩
        apply acc1
        have pick : ∀ c v, c ∈ x :: hs → mro.super c = some v → v ≠ u →
            ∃ a ∈ hs, ∃ s, mro.super a = some s ∧ s ≠ u := by
          intro c v hc hv hne
          rcases List.mem_cons.1 hc with rfl | h
          · rw [hx] at hv; cases hv; exact absurd rfl hne
          · exact ⟨c, h, v, hv, hne⟩
        by_cases hs' : s = u
        · exact pick b t hb h2 (fun h => h3 (hs'.trans h.symm))
        · exact pick a s ha h1 hs'
      · intro h
        rw [acc2 hs u x (fun a ha s hs' =>
          h a (List.mem_cons_of_mem _ ha) x List.mem_cons_self s u hs' hx)]
        simp [hx]

example : pickBase ⟨fun n => if n = 0 then none else some n, fun _ => []⟩ [0, 1, 2] none =
    .error .valueError := rfl
example : pickBase ⟨fun n => if n = 0 then none else some 7, fun _ => []⟩ [0, 1, 2] none =
    .ok (some 1) := rfl

theorem foldlM_unit_ok {α : Type} (f : α → Except Err Unit) (l : List α) :
    l.foldlM (fun _ a => f a) () = .ok () ↔ ∀ a ∈ l, f a = .ok () := by
  induction l with
  | nil => simp [pure, Except.pure]
  | cons a l ih =>
    rw [List.foldlM_cons]
    cases h : f a with
    | error e => simp [h, bind, Except.bind]
    | ok u => simpa [h, bind, Except.bind] using ih

/-- **C08 (checks before merging).** Nothing is merged unless every two different hierarchies of the list agree,
and each of them agrees with every core hierarchy it is derived from. -/
theorem compareAll_spec (mro : MroInfo) (fuel : Nat) (h : HHeap) (hs : List Nat) :
    (compareAll mro fuel h hs = .ok () ↔
      (∀ a ∈ hs, ∀ c ∈ mro.core a, compareRec h fuel a c = .ok ()) ∧
      ∀ a ∈ hs, ∀ b ∈ hs, a ≠ b → compareRec h fuel a b = .ok ()) ∧
    (∀ r, mergeHier mro fuel h hs = .ok r → compareAll mro fuel h hs = .ok ()) := by
  refine ⟨?_, ?_⟩
  · unfold compareAll
    rw [foldlM_unit_ok (fun a => do
      (mro.core a).foldlM (fun _ c => compareRec h fuel a c) ()
      hs.foldlM (fun _ b => if a ≠ b then compareRec h fuel a b else .ok ()) ())]
    have each : ∀ a, ((do
        (mro.core a).foldlM (fun _ c => compareRec h fuel a c) ()
        hs.foldlM (fun _ b => if a ≠ b then compareRec h fuel a b else .ok ()) () :
          Except Err Unit) = .ok ()) ↔
        (∀ c ∈ mro.core a, compareRec h fuel a c = .ok ()) ∧
        ∀ b ∈ hs, a ≠ b → compareRec h fuel a b = .ok () := by
      intro a
      have e1 := foldlM_unit_ok (fun c => compareRec h fuel a c) (mro.core a)
      have e2 := foldlM_unit_ok (fun b => if a ≠ b then compareRec h fuel a b else .ok ()) hs
      have e3 : (∀ b ∈ hs, (if a ≠ b then compareRec h fuel a b else .ok ()) = .ok ()) ↔
          ∀ b ∈ hs, a ≠ b → compareRec h fuel a b = .ok () := by
        constructor
        · intro H b hb hne
          have := H b hb
          rwa [if_pos hne] at this
        · intro H b hb
          by_cases hne : a ≠ b
          · rw [if_pos hne]; exact H b hb hne
          · rw [if_neg hne]
      rw [← e1, ← e3, ← e2]
      cases (mro.core a).foldlM (fun _ c => compareRec h fuel a c) () with
      | error e => simp [bind, Except.bind]
      | ok u => simp [bind, Except.bind]
    constructor
    · intro H
      exact ⟨fun a ha => ((each a).1 (H a ha)).1, fun a ha => ((each a).1 (H a ha)).2⟩
    · rintro ⟨H1, H2⟩ a ha
      exact (each a).2 ⟨H1 a ha, H2 a ha⟩
  · intro r e
    unfold mergeHier at e
    cases h1 : compareAll mro fuel h hs with
    | error err => simp [h1, bind, Except.bind] at e
    | ok u => rfl

/-- **C08 violated (inputs are modified).** Merging `[A, B]` changes the class `A` itself, and merging the result
with `C` afterwards adds a variable to the inner class of `B`. -/
theorem mergeHier_mutates_violated :
    ∃ (h h1 h2 : HHeap),
      mergeHier noMro 5 h [0, 1] = .ok (h1, 0) ∧ mergeHier noMro 5 h1 [0, 2] = .ok (h2, 0) ∧
      resolve h 0 ["Engine", "MASS"] = none ∧ resolve h1 0 ["Engine", "MASS"] = some "engine:mass" ∧
      resolve h1 1 ["Engine", "COLOR"] = none ∧ resolve h2 1 ["Engine", "COLOR"] = some "engine:color" := by
  refine ⟨heapOf [[("SPAN", .str "span")], [("Engine", .cls 3)], [("Engine", .cls 4)],
    [("MASS", .str "engine:mass")], [("COLOR", .str "engine:color")]], _, _, rfl, rfl, ?_, ?_, ?_, ?_⟩ <;> rfl

/-- **C08 violated (kind clash).** A name that is a variable in one input and a class in the other is merged
without error; the variable of the first input is lost. -/
theorem mergeHier_kind_violated :
    ∃ (h h' : HHeap), mergeHier noMro 5 h [0, 1] = .ok (h', 0) ∧
      resolve h 0 ["X"] = some "a:x" ∧ resolve h' 0 ["X"] = none := by
  refine ⟨heapOf [[("X", .str "a:x")], [("X", .cls 2)], [("Y", .str "a:y")]], _, rfl, rfl, rfl⟩

/-- The hypotheses of `mergeHier_contains_partial` are met by a two-level example with an overlapping inner
class. -/
example : ∃ (K : String → Bool) (h h' : HHeap), HWf h ∧ Typed K h ∧
    mergeHier noMro 5 h [0, 1] = .ok (h', 0) ∧ resolve h' 0 ["Engine", "B"] = some "b" := by
  refine ⟨fun k => decide (k = "Engine"), heapOf [[("Engine", .cls 2), ("A", .str "a")], [("Engine", .cls 3)],
    [], [("B", .str "b")]], _, ?_, ?_, rfl, rfl⟩
  · intro n
    match n with
    | 0 => decide
    | 1 => decide
    | 2 => decide
    | 3 => decide
    | n + 4 => simp [heapOf, Dict.keys]
  · intro n k v hv
    match n with
    | 0 =>
      have := Dict.mem_of_get? _ hv
      simp [heapOf] at this
      rcases this with ⟨rfl, rfl⟩ | ⟨rfl, rfl⟩ <;> simp
    | 1 =>
      have := Dict.mem_of_get? _ hv
      simp [heapOf] at this
      rcases this with ⟨rfl, rfl⟩; simp
    | 2 => simp [heapOf] at hv
    | 3 =>
      have := Dict.mem_of_get? _ hv
      simp [heapOf] at this
      rcases this with ⟨rfl, rfl⟩; simp
    | n + 4 => simp [heapOf] at hv

end Verif
