import Verif.Model.EngineDeck
import Mathlib.Tactic.Ring
import Mathlib.Tactic.SplitIfs
import Mathlib.Tactic.Linarith
import Mathlib.Tactic.Positivity
import Mathlib.Tactic.NormNum
import Mathlib.Data.List.Chain
import Mathlib.Data.List.Range

/-! # C17: counting and packing of engine deck data -/

namespace Verif

/-- The first Mach number of a Mach group. -/
def machOf (as : List (List DeckPt)) : Option ℚ := as.flatten.head?.map DeckPt.mach
/-- The first altitude of an altitude group. -/
def altOf (b : List DeckPt) : Option ℚ := b.head?.map DeckPt.alt

/-- `G` (Mach groups of altitude groups of points) is a grouping by the tolerances: groups are not empty, members are
close to the first member of their group, the first member of the next group is not close to it. -/
structure Grouped (G : List (List (List DeckPt))) : Prop where
  ne : ∀ as ∈ G, as ≠ [] ∧ ∀ b ∈ as, b ≠ []
  mach : ∀ as ∈ G, ∀ b ∈ as, ∀ p ∈ b, closeTo p.mach (machOf as) machTol = true
  alt : ∀ as ∈ G, ∀ b ∈ as, ∀ p ∈ b, closeTo p.alt (altOf b) altTol = true
  altChain : ∀ as ∈ G, as.IsChain (fun b b' => ∀ y ∈ altOf b', closeTo y (altOf b) altTol = false)
  machChain : G.IsChain (fun as as' => ∀ y ∈ machOf as', closeTo y (machOf as) machTol = false)

/-- The entry of `data_indices` for a group: its size minus one, but at least one. -/
def idxOf (G : List (List (List DeckPt))) (M A : ℕ) : ℕ :=
  match (G.getD M []).getD A [] with
  | [] => 0
  | b => max 1 (b.length - 1)

/-- Largest size in a list of lists, at least 1. -/
def maxLen {α : Type} (l : List (List α)) : ℕ := l.foldr (fun x m => max x.length m) 1

theorem isclose_self (a t r : ℚ) (ht : 0 ≤ t) : isclose a a t r = true := by
  simp [isclose, ht]

theorem maxLen_snoc {α : Type} (l : List (List α)) (x : List α) :
    maxLen (l ++ [x]) = max x.length (maxLen l) := by
  induction l with
  | nil => simp [maxLen]
  | cons a l ih =>
    simp only [maxLen, List.cons_append, List.foldr_cons] at ih ⊢
    rw [ih]
    omega

theorem le_maxLen {α : Type} (l : List (List α)) (x : List α) (h : x ∈ l) : x.length ≤ maxLen l := by
  induction l with
  | nil => simp at h
  | cons a l ih =>
    simp only [maxLen, List.foldr_cons]
    rcases List.mem_cons.1 h with h | h
    · subst h; omega
    · have := ih h
      simp only [maxLen] at this
      omega

/-- Relation between the local variables of `_count_data` and the grouping found so far: complete Mach groups `gs`,
complete altitude groups `as` of the current Mach, current altitude group `b`. -/
structure CountRel (gs : List (List (List DeckPt))) (as : List (List DeckPt)) (b : List DeckPt) (s : CountSt) :
    Prop where
  mc : s.machCount = gs.length + 1
  ac : s.altCount = as.length + 1
  dc : s.dataCount = b.length
  bne : b ≠ []
  ma : s.maxAlt = maxLen gs
  md : s.maxData = maxLen (gs.flatten ++ as)
  rows : s.machCount ≤ s.idx.rows
  cols : s.altCount ≤ s.idx.cols
  out : ∀ i j, ¬(i < s.idx.rows ∧ j < s.idx.cols) → s.idx.get i j = 0
  idx : ∀ M A, s.idx.get M A = idxOf (gs ++ [as ++ [b]]) M A
  cm : s.curM = machOf (as ++ [b])
  ca : s.curA = altOf b
  grp : Grouped (gs ++ [as ++ [b]])

theorem getD_snoc {α : Type} (l : List α) (x d : α) (i : ℕ) :
    (l ++ [x]).getD i d = if i < l.length then l.getD i d else if i = l.length then x else d := by
  simp only [List.getD_eq_getElem?_getD]
  split_ifs with h1 h2
  · rw [List.getElem?_append_left h1]
  · subst h2; simp
  · rw [List.getElem?_eq_none (by simp; omega)]; rfl

theorem idxOf_snoc (gs : List (List (List DeckPt))) (as : List (List DeckPt)) (b : List DeckPt) (hb : b ≠ [])
    (M A : ℕ) : idxOf (gs ++ [as ++ [b]]) M A =
      if M < gs.length then idxOf gs M A
      else if M = gs.length then
        (if A < as.length then idxOf [as] 0 A else if A = as.length then max 1 (b.length - 1) else 0)
      else 0 := by
  unfold idxOf
  rw [getD_snoc]
  by_cases h1 : M < gs.length
  · rw [if_pos h1, if_pos h1]
  · rw [if_neg h1, if_neg h1]
    by_cases h2 : M = gs.length
    · rw [if_pos h2, if_pos h2, getD_snoc]
      by_cases h3 : A < as.length
      · rw [if_pos h3, if_pos h3]; rfl
      · rw [if_neg h3, if_neg h3]
        by_cases h4 : A = as.length
        · rw [if_pos h4, if_pos h4]
          cases b with
          | nil => exact absurd rfl hb
          | cons a l => rfl
        · rw [if_neg h4, if_neg h4]
    · rw [if_neg h2, if_neg h2]; simp

theorem machOf_append (as : List (List DeckPt)) (b : List DeckPt) (c : List DeckPt) (hb : b ≠ []) :
    machOf (as ++ [b] ++ [c]) = machOf (as ++ [b]) := by
  unfold machOf
  have : (as ++ [b]).flatten ≠ [] := by simp [hb]
  rw [List.flatten_append, List.head?_append_of_ne_nil _ this]

theorem machOf_extend (as : List (List DeckPt)) (b : List DeckPt) (p : DeckPt) (hb : b ≠ []) :
    machOf (as ++ [b ++ [p]]) = machOf (as ++ [b]) := by
  unfold machOf
  have : (as ++ [b]).flatten ≠ [] := by simp [hb]
  have e : (as ++ [b ++ [p]]).flatten = (as ++ [b]).flatten ++ [p] := by simp
  rw [e, List.head?_append_of_ne_nil _ this]

theorem altOf_extend (b : List DeckPt) (p : DeckPt) (hb : b ≠ []) : altOf (b ++ [p]) = altOf b := by
  unfold altOf
  rw [List.head?_append_of_ne_nil _ hb]

theorem isChain_snoc {α : Type} {R : α → α → Prop} (l : List α) (x : α) :
    (l ++ [x]).IsChain R ↔ l.IsChain R ∧ ∀ y ∈ l.getLast?, R y x := by
  rw [List.isChain_append]
  simp

theorem grouped_same {gs : List (List (List DeckPt))} {as : List (List DeckPt)} {b : List DeckPt} {p : DeckPt}
    (hb : b ≠ []) (h : Grouped (gs ++ [as ++ [b]])) (hm : closeTo p.mach (machOf (as ++ [b])) machTol = true)
    (ha : closeTo p.alt (altOf b) altTol = true) : Grouped (gs ++ [as ++ [b ++ [p]]]) := by
  have hmem : as ++ [b] ∈ gs ++ [as ++ [b]] := by simp
  refine ⟨?_, ?_, ?_, ?_, ?_⟩
  · intro x hx
    simp only [List.mem_append, List.mem_singleton] at hx
    rcases hx with hx | hx
    · exact h.ne x (by simp [hx])
    · subst hx
      refine ⟨by simp, ?_⟩
      intro y hy
      simp only [List.mem_append, List.mem_singleton] at hy
      rcases hy with hy | hy
      · exact (h.ne _ hmem).2 y (by simp [hy])
      · subst hy; simp
  · intro x hx
    simp only [List.mem_append, List.mem_singleton] at hx
    rcases hx with hx | hx
    · exact h.mach x (by simp [hx])
    · subst hx
      rw [machOf_extend _ _ _ hb]
      intro y hy q hq
      simp only [List.mem_append, List.mem_singleton] at hy
      rcases hy with hy | hy
      · exact h.mach _ hmem y (by simp [hy]) q hq
      · subst hy
        simp only [List.mem_append, List.mem_singleton] at hq
        rcases hq with hq | hq
        · exact h.mach _ hmem b (by simp) q hq
        · subst hq; exact hm
  · intro x hx
    simp only [List.mem_append, List.mem_singleton] at hx
    rcases hx with hx | hx
    · exact h.alt x (by simp [hx])
    · subst hx
      intro y hy q hq
      simp only [List.mem_append, List.mem_singleton] at hy
      rcases hy with hy | hy
      · exact h.alt _ hmem y (by simp [hy]) q hq
      · subst hy
        rw [altOf_extend _ _ hb]
        simp only [List.mem_append, List.mem_singleton] at hq
        rcases hq with hq | hq
        · exact h.alt _ hmem b (by simp) q hq
        · subst hq; exact ha
  · intro x hx
    simp only [List.mem_append, List.mem_singleton] at hx
    rcases hx with hx | hx
    · exact h.altChain x (by simp [hx])
    · subst hx
      have := h.altChain _ hmem
      rw [isChain_snoc] at this ⊢
      rw [altOf_extend _ _ hb]
      exact this
  · have := h.machChain
    rw [isChain_snoc] at this ⊢
    rw [machOf_extend _ _ _ hb]
    exact this

theorem grouped_alt {gs : List (List (List DeckPt))} {as : List (List DeckPt)} {b : List DeckPt} {p : DeckPt}
    (hb : b ≠ []) (h : Grouped (gs ++ [as ++ [b]])) (hm : closeTo p.mach (machOf (as ++ [b])) machTol = true)
    (ha : closeTo p.alt (altOf b) altTol = false) : Grouped (gs ++ [as ++ [b] ++ [[p]]]) := by
  have hmem : as ++ [b] ∈ gs ++ [as ++ [b]] := by simp
  refine ⟨?_, ?_, ?_, ?_, ?_⟩
  · intro x hx
    rw [List.mem_append, List.mem_singleton] at hx
    rcases hx with hx | hx
    · exact h.ne x (by simp [hx])
    · subst hx
      refine ⟨by simp, ?_⟩
      intro y hy
      rw [List.mem_append, List.mem_singleton] at hy
      rcases hy with hy | hy
      · exact (h.ne _ hmem).2 y hy
      · subst hy; simp
  · intro x hx
    rw [List.mem_append, List.mem_singleton] at hx
    rcases hx with hx | hx
    · exact h.mach x (by simp [hx])
    · subst hx
      rw [machOf_append _ _ _ hb]
      intro y hy q hq
      rw [List.mem_append, List.mem_singleton] at hy
      rcases hy with hy | hy
      · exact h.mach _ hmem y hy q hq
      · subst hy
        rw [List.mem_singleton] at hq
        subst hq; exact hm
  · intro x hx
    rw [List.mem_append, List.mem_singleton] at hx
    rcases hx with hx | hx
    · exact h.alt x (by simp [hx])
    · subst hx
      intro y hy q hq
      rw [List.mem_append, List.mem_singleton] at hy
      rcases hy with hy | hy
      · exact h.alt _ hmem y hy q hq
      · subst hy
        rw [List.mem_singleton] at hq
        subst hq
        exact isclose_self _ _ _ (by norm_num [altTol])
  · intro x hx
    rw [List.mem_append, List.mem_singleton] at hx
    rcases hx with hx | hx
    · exact h.altChain x (by simp [hx])
    · subst hx
      have := h.altChain _ hmem
      rw [isChain_snoc]
      refine ⟨this, ?_⟩
      intro y hy z hz
      simp at hy
      subst hy
      simp [altOf] at hz
      subst hz
      exact ha
  · have := h.machChain
    rw [isChain_snoc] at this ⊢
    rw [machOf_append _ _ _ hb]
    exact this

theorem grouped_mach {gs : List (List (List DeckPt))} {as : List (List DeckPt)} {b : List DeckPt} {p : DeckPt}
    (h : Grouped (gs ++ [as ++ [b]])) (hm : closeTo p.mach (machOf (as ++ [b])) machTol = false) :
    Grouped (gs ++ [as ++ [b]] ++ [[] ++ [[p]]]) := by
  refine ⟨?_, ?_, ?_, ?_, ?_⟩
  · intro x hx
    rw [List.mem_append, List.mem_singleton] at hx
    rcases hx with hx | hx
    · exact h.ne x hx
    · subst hx
      simp
  · intro x hx
    rw [List.mem_append, List.mem_singleton] at hx
    rcases hx with hx | hx
    · exact h.mach x hx
    · subst hx
      intro y hy q hq
      simp at hy
      subst hy
      simp at hq
      subst hq
      exact isclose_self _ _ _ (by norm_num [machTol])
  · intro x hx
    rw [List.mem_append, List.mem_singleton] at hx
    rcases hx with hx | hx
    · exact h.alt x hx
    · subst hx
      intro y hy q hq
      simp at hy
      subst hy
      simp at hq
      subst hq
      exact isclose_self _ _ _ (by norm_num [altTol])
  · intro x hx
    rw [List.mem_append, List.mem_singleton] at hx
    rcases hx with hx | hx
    · exact h.altChain x hx
    · subst hx
      simp
  · rw [isChain_snoc]
    refine ⟨h.machChain, ?_⟩
    intro y hy z hz
    simp at hy
    subst hy
    simp [machOf] at hz
    subst hz
    exact hm

theorem Arr2.set_ok {a : Arr2} {i j v : ℕ} (h : i < a.rows ∧ j < a.cols) :
    a.set i j v = .ok { a with get := fun i' j' => if i' = i ∧ j' = j then v else a.get i' j' } := by
  unfold Arr2.set
  rw [if_pos h]

theorem extend_get {a : Arr2} (hout : ∀ i j, ¬(i < a.rows ∧ j < a.cols) → a.get i j = 0) (r c i j : ℕ) :
    (a.extend r c).get i j = a.get i j := by
  simp only [Arr2.extend]
  split_ifs with h
  · rfl
  · exact (hout i j h).symm

theorem ite_gt_max (a b : ℕ) : (if a > b then a else b) = max a b := by
  split_ifs <;> omega

/-- The loop keeps the relation; the only error is the documented warning. -/
theorem countStep_rel (srt : SortBy) {gs : List (List (List DeckPt))} {as : List (List DeckPt)} {b : List DeckPt}
    {s : CountSt} (p : DeckPt) (h : CountRel gs as b s) :
    (closeTo p.mach s.curM machTol = true ∧ closeTo p.alt s.curA altTol = true ∧
      ∃ s', countStep srt s p = .ok s' ∧ CountRel gs as (b ++ [p]) s') ∨
    (closeTo p.mach s.curM machTol = true ∧ closeTo p.alt s.curA altTol = false ∧
      ((srt = .altitude ∧ gs = [] ∧ countStep srt s p = .error .userWarning) ∨
       ((srt = .mach ∨ gs ≠ []) ∧ ∃ s', countStep srt s p = .ok s' ∧ CountRel gs (as ++ [b]) [p] s'))) ∨
    (closeTo p.mach s.curM machTol = false ∧
      ((srt = .mach ∧ as = [] ∧ countStep srt s p = .error .userWarning) ∨
       ((srt = .altitude ∨ as ≠ []) ∧
          ∃ s', countStep srt s p = .ok s' ∧ CountRel (gs ++ [as ++ [b]]) [] [p] s'))) := by
  have hbl : 1 ≤ b.length := List.length_pos_iff.2 h.bne
  by_cases hm : closeTo p.mach s.curM machTol = true
  · by_cases ha : closeTo p.alt s.curA altTol = true
    · left
      refine ⟨hm, ha, ?_⟩
      have hin : s.machCount - 1 < s.idx.rows ∧ s.altCount - 1 < s.idx.cols := by
        have := h.rows; have := h.cols; have := h.mc; have := h.ac; omega
      refine ⟨_, by simp only [countStep, hm, ha, if_true, Arr2.set_ok hin, Except.bind, bind]; rfl, ?_⟩
      exact {
        mc := h.mc, ac := h.ac, dc := by simp [h.dc], bne := by simp, ma := h.ma, md := h.md
        rows := h.rows, cols := h.cols
        out := by
          intro i j hij
          simp only at hij ⊢
          rw [if_neg (by rintro ⟨rfl, rfl⟩; exact hij hin)]
          exact h.out i j hij
        idx := by
          intro M A
          have hmc := h.mc; have hac := h.ac; have hdc := h.dc
          have e := h.idx M A
          rw [idxOf_snoc _ _ _ h.bne] at e
          rw [idxOf_snoc _ _ _ (by simp)]
          simp only [List.length_append, List.length_singleton]
          by_cases hc : M = s.machCount - 1 ∧ A = s.altCount - 1
          · rw [if_pos hc, if_neg (by omega), if_pos (by omega), if_neg (by omega), if_pos (by omega), hdc]
            omega
          · rw [if_neg hc, e]
            by_cases h1 : M < gs.length
            · rw [if_pos h1, if_pos h1]
            · rw [if_neg h1, if_neg h1]
              by_cases h2 : M = gs.length
              · rw [if_pos h2, if_pos h2]
                by_cases h3 : A < as.length
                · rw [if_pos h3, if_pos h3]
                · rw [if_neg h3, if_neg h3, if_neg (by omega), if_neg (by omega)]
              · rw [if_neg h2, if_neg h2]
        cm := by rw [machOf_extend _ _ _ h.bne]; exact h.cm
        ca := by rw [altOf_extend _ _ h.bne]; exact h.ca
        grp := grouped_same h.bne h.grp (h.cm ▸ hm) (h.ca ▸ ha) }
    · right; left
      have ha' : closeTo p.alt s.curA altTol = false := by simpa using ha
      refine ⟨hm, ha', ?_⟩
      by_cases hw : srt = .altitude ∧ gs = []
      · left
        refine ⟨hw.1, hw.2, ?_⟩
        have : srt = .altitude ∧ s.machCount < 2 ∧ s.altCount > 0 := by
          have hmc := h.mc; have hac := h.ac
          rw [hw.2] at hmc
          exact ⟨hw.1, by simp at hmc; omega, by omega⟩
        simp only [countStep, hm, ha', if_true, if_pos this]
        rfl
      · right
        have hw' : ¬(srt = .altitude ∧ s.machCount < 2 ∧ s.altCount > 0) := by
          rintro ⟨h1, h2, _⟩
          have hmc := h.mc
          have : gs.length = 0 := by omega
          exact hw ⟨h1, List.eq_nil_of_length_eq_zero this⟩
        refine ⟨by cases srt <;> simp_all, ?_⟩
        have hin : s.machCount - 1 < (s.idx.extend s.machCount (s.altCount + 1)).rows ∧
            s.altCount + 1 - 1 < (s.idx.extend s.machCount (s.altCount + 1)).cols := by
          have := h.rows; have := h.mc
          simp only [Arr2.extend]
          omega
        refine ⟨_, by
          simp only [countStep, hm, ha', if_true, if_neg hw', Arr2.set_ok hin, Except.bind, bind]
          rfl, ?_⟩
        have hmc := h.mc; have hac := h.ac; have hdc := h.dc
        exact {
          mc := h.mc
          ac := by simp [h.ac]
          dc := by simp
          bne := by simp
          ma := h.ma
          md := by
            simp only [ite_gt_max]
            rw [← List.append_assoc, maxLen_snoc, h.md, h.dc]
          rows := by simp only [Arr2.extend]; omega
          cols := by simp only [Arr2.extend]; omega
          out := by
            intro i j hij
            simp only at hij ⊢
            rw [if_neg (by rintro ⟨rfl, rfl⟩; exact hij hin), extend_get h.out]
            apply h.out
            simp only [Arr2.extend] at hij
            omega
          idx := by
            intro M A
            simp only [extend_get h.out]
            rw [idxOf_snoc _ _ _ (by simp), h.idx, idxOf_snoc _ _ _ h.bne]
            have e0 : idxOf [as ++ [b]] 0 A =
                if A < as.length then idxOf [as] 0 A else if A = as.length then max 1 (b.length - 1) else 0 := by
              have := idxOf_snoc [] as b h.bne 0 A
              simpa using this
            rw [e0]
            simp only [List.length_append, List.length_singleton]
            by_cases hc : M = s.machCount - 1 ∧ A = s.altCount + 1 - 1
            · rw [if_pos hc, if_neg (by omega), if_pos (by omega), if_neg (by omega), if_pos (by omega)]
              rfl
            · rw [if_neg hc]
              by_cases h1 : M < gs.length
              · rw [if_pos h1, if_pos h1]
              · rw [if_neg h1, if_neg h1]
                by_cases h2 : M = gs.length
                · rw [if_pos h2, if_pos h2]
                  by_cases h3 : A < as.length
                  · rw [if_pos h3, if_pos (by omega)]
                  · rw [if_neg h3]
                    by_cases h4 : A = as.length
                    · rw [if_pos h4, if_pos (by omega)]
                    · rw [if_neg h4, if_neg (by omega), if_neg (by omega)]
                · rw [if_neg h2, if_neg h2]
          cm := by rw [machOf_append _ _ _ h.bne]; exact h.cm
          ca := by simp [altOf]
          grp := grouped_alt h.bne h.grp (h.cm ▸ hm) (h.ca ▸ ha') }
  · right; right
    have hm' : closeTo p.mach s.curM machTol = false := by simpa using hm
    refine ⟨hm', ?_⟩
    by_cases hw : srt = .mach ∧ as = []
    · left
      refine ⟨hw.1, hw.2, ?_⟩
      have : srt = .mach ∧ s.altCount < 2 ∧ s.machCount > 0 := by
        have hmc := h.mc; have hac := h.ac
        rw [hw.2] at hac
        exact ⟨hw.1, by simp at hac; omega, by omega⟩
      simp only [countStep, hm', if_pos this]
      rfl
    · right
      have hw' : ¬(srt = .mach ∧ s.altCount < 2 ∧ s.machCount > 0) := by
        rintro ⟨h1, h2, _⟩
        have hac := h.ac
        have : as.length = 0 := by omega
        exact hw ⟨h1, List.eq_nil_of_length_eq_zero this⟩
      refine ⟨by cases srt <;> simp_all, ?_⟩
      have hin : s.machCount + 1 - 1 < (s.idx.extend (s.machCount + 1) 1).rows ∧
          0 < (s.idx.extend (s.machCount + 1) 1).cols := by
        simp only [Arr2.extend]
        omega
      refine ⟨_, by
        simp only [countStep, hm', if_neg hw', Arr2.set_ok hin, Except.bind, bind]
        rfl, ?_⟩
      have hmc := h.mc; have hac := h.ac; have hdc := h.dc
      exact {
        mc := by simp [h.mc]
        ac := by simp
        dc := by simp
        bne := by simp
        ma := by
          simp only [ite_gt_max]
          rw [maxLen_snoc, h.ma, h.ac]
          simp
        md := by
          simp only [ite_gt_max]
          have : (gs ++ [as ++ [b]]).flatten ++ [] = gs.flatten ++ as ++ [b] := by simp
          rw [this, maxLen_snoc, h.md, h.dc]
        rows := by simp only [Arr2.extend]; omega
        cols := by simp only [Arr2.extend]; omega
        out := by
          intro i j hij
          simp only at hij ⊢
          rw [if_neg (by rintro ⟨rfl, rfl⟩; exact hij hin), extend_get h.out]
          apply h.out
          simp only [Arr2.extend] at hij
          omega
        idx := by
          intro M A
          simp only [extend_get h.out]
          rw [idxOf_snoc (gs ++ [as ++ [b]]) [] [p] (by simp), h.idx]
          simp only [List.length_append, List.length_singleton, List.length_nil]
          by_cases hc : M = s.machCount + 1 - 1 ∧ A = 0
          · rw [if_pos hc, if_neg (by omega), if_pos (by omega), if_neg (by omega), if_pos (by omega)]
            rfl
          · rw [if_neg hc]
            by_cases h1 : M < gs.length + 1
            · rw [if_pos h1]
            · rw [if_neg h1, idxOf_snoc _ _ _ h.bne, if_neg (by omega), if_neg (by omega)]
              by_cases h2 : M = gs.length + 1
              · rw [if_pos h2, if_neg (by omega), if_neg (by omega)]
              · rw [if_neg h2]
        cm := by simp [machOf]
        ca := by simp [altOf]
        grp := grouped_mach h.grp (h.cm ▸ hm') }

theorem countInit_rel (srt : SortBy) (p : DeckPt) :
    ∃ s, countStep srt countInit p = .ok s ∧ CountRel [] [] [p] s := by
  have hw : ¬(srt = .mach ∧ countInit.altCount < 2 ∧ countInit.machCount > 0) := by
    rintro ⟨_, _, h⟩
    simp [countInit] at h
  refine ⟨_, by
    simp only [countStep]
    rw [if_neg (by simp [countInit, closeTo]), if_neg hw, Arr2.set_ok (by simp [countInit, Arr2.extend])]
    rfl, ?_⟩
  exact {
    mc := by simp [countInit]
    ac := by simp
    dc := by simp
    bne := by simp
    ma := by simp [countInit, maxLen]
    md := by simp [countInit, maxLen]
    rows := by simp [countInit, Arr2.extend]
    cols := by simp [countInit, Arr2.extend]
    out := by
      intro i j hij
      simp only [countInit, Arr2.extend] at hij
      show (if i = 0 ∧ j = 0 then 1 else if i < 1 ∧ j < 0 then 0 else 0) = 0
      rw [if_neg (by omega)]
      simp
    idx := by
      intro M A
      have e := idxOf_snoc [] [] [p] (by simp) M A
      rw [e]
      show (if M = 0 ∧ A = 0 then 1 else if M < 1 ∧ A < 0 then 0 else 0) = _
      simp only [List.length_nil, List.length_singleton]
      by_cases h1 : M = 0 ∧ A = 0
      · obtain ⟨rfl, rfl⟩ := h1
        rfl
      · rw [if_neg h1, if_neg (by omega), if_neg (by omega)]
        by_cases h2 : M = 0
        · rw [if_pos h2, if_neg (by omega), if_neg (by omega)]
        · rw [if_neg h2]
    cm := by simp [machOf]
    ca := by simp [altOf]
    grp := by
      refine ⟨?_, ?_, ?_, ?_, ?_⟩
      · simp
      · simp [machOf, closeTo, isclose_self, machTol]
      · simp [altOf, closeTo, isclose_self, altTol]
      · simp
      · simp }

theorem countData_rel (srt : SortBy) (ps : List DeckPt) :
    ∀ (gs : List (List (List DeckPt))) (as : List (List DeckPt)) (b : List DeckPt) (s : CountSt),
      CountRel gs as b s →
      (srt = .mach → ∀ x ∈ gs, 2 ≤ x.length) →
      (countData srt s ps = .error .userWarning) ∨
      ∃ gs' as' b' s', countData srt s ps = .ok s' ∧ CountRel gs' as' b' s' ∧
        (srt = .mach → ∀ x ∈ gs', 2 ≤ x.length) ∧
        (gs' ++ [as' ++ [b']]).flatten.flatten = (gs ++ [as ++ [b]]).flatten.flatten ++ ps := by
  induction ps with
  | nil => exact fun gs as b s h hg => Or.inr ⟨gs, as, b, s, rfl, h, hg, by simp⟩
  | cons p ps ih =>
    intro gs as b s h hg
    have step := countStep_rel srt p h
    rcases step with ⟨_, _, s', e, h'⟩ | ⟨_, _, hc⟩ | ⟨_, hc⟩
    · rcases ih _ _ _ _ h' hg with r | ⟨g, a, b', s'', r1, r2, r3, r4⟩
      · left; simp only [countData, e]; exact r
      · right
        exact ⟨g, a, b', s'', by simp only [countData, e]; exact r1, r2, r3, by rw [r4]; simp⟩
    · rcases hc with ⟨_, _, e⟩ | ⟨_, s', e, h'⟩
      · left; simp only [countData, e]
      · rcases ih _ _ _ _ h' hg with r | ⟨g, a, b', s'', r1, r2, r3, r4⟩
        · left; simp only [countData, e]; exact r
        · right
          exact ⟨g, a, b', s'', by simp only [countData, e]; exact r1, r2, r3, by rw [r4]; simp⟩
    · rcases hc with ⟨_, _, e⟩ | ⟨hna, s', e, h'⟩
      · left; simp only [countData, e]
      · have hg' : srt = .mach → ∀ x ∈ gs ++ [as ++ [b]], 2 ≤ x.length := by
          intro hs x hx
          rw [List.mem_append, List.mem_singleton] at hx
          rcases hx with hx | hx
          · exact hg hs x hx
          · subst hx
            have : as ≠ [] := by
              rcases hna with hna | hna
              · rw [hs] at hna; cases hna
              · exact hna
            have := List.length_pos_iff.2 this
            simp; omega
        rcases ih _ _ _ _ h' hg' with r | ⟨g, a, b', s'', r1, r2, r3, r4⟩
        · left; simp only [countData, e]; exact r
        · right
          exact ⟨g, a, b', s'', by simp only [countData, e]; exact r1, r2, r3, by rw [r4]; simp⟩

/-- **C17 (counting).** For every non-empty deck `_count_data` either raises the documented UserWarning or finds a
grouping `G` of the deck's points by the tolerances, in deck order and without losing a point.  `mach_max_count` is
the number of Mach groups.  The other results are not the counts of `G`: `data_indices` is the size of a group minus
one but never below one, and both maxima leave the last group out. -/
theorem countData_spec (srt : SortBy) (deck : List DeckPt) (hne : deck ≠ []) :
    countData srt countInit deck = .error .userWarning ∨
    ∃ G c, countData srt countInit deck = .ok c ∧ G.flatten.flatten = deck ∧ Grouped G ∧
      c.machCount = G.length ∧ c.maxAlt = maxLen G.dropLast ∧ c.maxData = maxLen G.flatten.dropLast ∧
      (∀ M A b, (G.getD M [])[A]? = some b → c.idx.get M A = max 1 (b.length - 1)) ∧
      (∀ M A, (G.getD M [])[A]? = none → c.idx.get M A = 0) ∧
      (srt = .mach → ∀ x ∈ G.dropLast, 2 ≤ x.length) := by
  cases deck with
  | nil => exact absurd rfl hne
  | cons p ps =>
    obtain ⟨s, e, h⟩ := countInit_rel srt p
    rcases countData_rel srt ps _ _ _ _ h (by simp) with r | ⟨gs, as, b, s', r1, r2, r3, r4⟩
    · left; simp only [countData, e]; exact r
    · right
      refine ⟨gs ++ [as ++ [b]], s', by simp only [countData, e]; exact r1, by rw [r4]; simp, r2.grp, by
        rw [r2.mc]; simp, by rw [r2.ma]; simp, ?_, ?_, ?_, by simpa using r3⟩
      · rw [r2.md]
        have : (gs ++ [as ++ [b]]).flatten = gs.flatten ++ as ++ [b] := by simp
        rw [this, List.dropLast_concat]
      · intro M A b' hb'
        rw [r2.idx]
        unfold idxOf
        rw [List.getD_eq_getElem?_getD (l := (gs ++ [as ++ [b]]).getD M []), hb']
        have hmem : b' ∈ (gs ++ [as ++ [b]]).getD M [] := List.mem_of_getElem? hb'
        have hM : (gs ++ [as ++ [b]]).getD M [] ∈ gs ++ [as ++ [b]] := by
          rw [List.getD_eq_getElem?_getD] at hmem ⊢
          cases hq : (gs ++ [as ++ [b]])[M]? with
          | none => rw [hq] at hmem; simp at hmem
          | some q => exact List.mem_of_getElem? hq
        have := (r2.grp.ne _ hM).2 b' hmem
        cases b' with
        | nil => exact absurd rfl this
        | cons x xs => rfl
      · intro M A hb'
        rw [r2.idx]
        unfold idxOf
        rw [List.getD_eq_getElem?_getD (l := (gs ++ [as ++ [b]]).getD M []), hb']
        rfl

theorem countData_error_rel (srt : SortBy) (ps : List DeckPt) (e : Err) :
    ∀ (gs : List (List (List DeckPt))) (as : List (List DeckPt)) (b : List DeckPt) (s : CountSt),
      CountRel gs as b s → countData srt s ps = .error e →
      e = .userWarning ∧ ∃ pre p post gs' as' b', ps = pre ++ p :: post ∧ Grouped (gs' ++ [as' ++ [b']]) ∧
        (gs' ++ [as' ++ [b']]).flatten.flatten = (gs ++ [as ++ [b]]).flatten.flatten ++ pre ∧
        ((srt = .mach ∧ as' = [] ∧ closeTo p.mach (machOf [b']) machTol = false) ∨
         (srt = .altitude ∧ gs' = [] ∧ closeTo p.mach (machOf (as' ++ [b'])) machTol = true ∧
          closeTo p.alt (altOf b') altTol = false)) := by
  induction ps with
  | nil => intro gs as b s h he; simp [countData] at he
  | cons p ps ih =>
    intro gs as b s h he
    have finish : ∀ gs1 as1 b1 s1, CountRel gs1 as1 b1 s1 → countStep srt s p = .ok s1 →
        (gs1 ++ [as1 ++ [b1]]).flatten.flatten = (gs ++ [as ++ [b]]).flatten.flatten ++ [p] →
        e = .userWarning ∧ ∃ pre q post gs' as' b', p :: ps = pre ++ q :: post ∧ Grouped (gs' ++ [as' ++ [b']]) ∧
        (gs' ++ [as' ++ [b']]).flatten.flatten = (gs ++ [as ++ [b]]).flatten.flatten ++ pre ∧
        ((srt = .mach ∧ as' = [] ∧ closeTo q.mach (machOf [b']) machTol = false) ∨
         (srt = .altitude ∧ gs' = [] ∧ closeTo q.mach (machOf (as' ++ [b'])) machTol = true ∧
          closeTo q.alt (altOf b') altTol = false)) := by
      intro gs1 as1 b1 s1 h1 e1 hf
      simp only [countData, e1] at he
      obtain ⟨r0, pre, q, post, g, a, b', r1, r2, r3, r4⟩ := ih _ _ _ _ h1 he
      exact ⟨r0, p :: pre, q, post, g, a, b', by rw [r1]; rfl, r2, by rw [r3, hf]; simp, r4⟩
    rcases countStep_rel srt p h with ⟨_, _, s', e', h'⟩ | ⟨hm, ha, hc⟩ | ⟨hm, hc⟩
    · exact finish _ _ _ _ h' e' (by simp)
    · rcases hc with ⟨h1, h2, e'⟩ | ⟨_, s', e', h'⟩
      · simp only [countData, e', Except.error.injEq] at he
        refine ⟨he.symm, [], p, ps, gs, as, b, rfl, h.grp, by simp, Or.inr ⟨h1, h2, ?_, ?_⟩⟩
        · rw [← h.cm]; exact hm
        · rw [← h.ca]; exact ha
      · exact finish _ _ _ _ h' e' (by simp)
    · rcases hc with ⟨h1, h2, e'⟩ | ⟨_, s', e', h'⟩
      · simp only [countData, e', Except.error.injEq] at he
        refine ⟨he.symm, [], p, ps, gs, as, b, rfl, h.grp, by simp, Or.inl ⟨h1, h2, ?_⟩⟩
        have := h.cm
        rw [h2] at this
        rw [← show s.curM = machOf [b] from this]; exact hm
      · exact finish _ _ _ _ h' e' (by simp)

/-- **C17 (when a deck is refused).** `_count_data` raises nothing but the documented UserWarning, and only if the
data is not sorted as announced: sorted by Mach number, a Mach group followed by another has a single altitude;
sorted by altitude, the first Mach group has a second altitude. -/
theorem countData_error (srt : SortBy) (deck : List DeckPt) (e : Err) (h : countData srt countInit deck = .error e) :
    e = .userWarning ∧ ∃ pre p post G as, deck = pre ++ p :: post ∧ Grouped (G ++ [as]) ∧
      (G ++ [as]).flatten.flatten = pre ∧
      ((srt = .mach ∧ as.length = 1 ∧ closeTo p.mach (machOf as) machTol = false) ∨
       (srt = .altitude ∧ G = [] ∧ closeTo p.mach (machOf as) machTol = true ∧
        ∃ b, as.getLast? = some b ∧ closeTo p.alt (altOf b) altTol = false)) := by
  cases deck with
  | nil => simp [countData] at h
  | cons p ps =>
    obtain ⟨s, e1, hr⟩ := countInit_rel srt p
    simp only [countData, e1] at h
    obtain ⟨h0, pre, q, post, g, a, b, r1, r2, r3, r4⟩ := countData_error_rel srt ps e _ _ _ _ hr h
    refine ⟨h0, p :: pre, q, post, g, a ++ [b], by rw [r1]; rfl, r2, by rw [r3]; simp, ?_⟩
    rcases r4 with ⟨x1, x2, x3⟩ | ⟨x1, x2, x3, x4⟩
    · subst x2; exact Or.inl ⟨x1, rfl, x3⟩
    · exact Or.inr ⟨x1, x2, x3, b, by simp, x4⟩

/-- **C17 (tolerances).** Two Mach numbers count as equal up to 0.01 and two altitudes up to 10 ft, or up to one part
in 10⁹ when that is more. -/
theorem closeTo_spec (x c : ℚ) :
    (closeTo x (some c) machTol = true ↔ |x - c| ≤ 1 / 100 ∨ |x - c| ≤ max |x| |c| / 10 ^ 9) ∧
    (closeTo x (some c) altTol = true ↔ |x - c| ≤ 10 ∨ |x - c| ≤ max |x| |c| / 10 ^ 9) := by
  have e : (1 / 1000000000 : ℚ) * max |x| |c| = max |x| |c| / 10 ^ 9 := by ring
  simp only [closeTo, isclose, decide_eq_true_eq, le_max_iff, machTol, altTol, e]
  exact ⟨or_comm, or_comm⟩

/-! ## Packing -/

theorem packD_ok (dmax M A : ℕ) (b : List DeckPt) : ∀ (D : ℕ) (rest : List DeckPt), D + b.length ≤ dmax →
    packD dmax M A b.length D (b ++ rest) = .ok ((b.zipIdx D).map (fun q => ((M, A, q.2), q.1)), rest) := by
  induction b with
  | nil => intro D rest _; rfl
  | cons p b ih =>
    intro D rest h
    simp only [List.length_cons] at h
    simp only [List.length_cons, List.cons_append, packD]
    rw [if_pos (by omega), ih (D + 1) rest (by omega)]
    rfl

theorem packMA_ok (c : CountSt) (pts : ℕ × ℕ → List DeckPt) : ∀ (l : List (ℕ × ℕ)),
    (∀ q ∈ l, (c.idx.get q.1 q.2 = 0 ∧ pts q = []) ∨
      (c.idx.get q.1 q.2 ≠ 0 ∧ c.idx.get q.1 q.2 + 1 = (pts q).length ∧ (pts q).length ≤ c.maxData)) →
    packMA c l (l.flatMap pts) = .ok (l.flatMap (fun q => (pts q).zipIdx.map (fun r => ((q.1, q.2, r.2), r.1)))) := by
  intro l
  induction l with
  | nil => intro _; rfl
  | cons q l ih =>
    obtain ⟨M, A⟩ := q
    intro h
    have hl := ih (fun q hq => h q (List.mem_cons_of_mem _ hq))
    rcases h (M, A) (by simp) with ⟨h1, h2⟩ | ⟨h1, h2, h3⟩
    · simp only [packMA, List.flatMap_cons, h2, List.nil_append]
      rw [if_pos h1, hl]
      rfl
    · simp only [packMA, List.flatMap_cons]
      rw [if_neg h1]
      simp only at h2 h3
      rw [h2, packD_ok _ _ _ _ 0 _ (by omega)]
      simp only [bind, Except.bind, hl]

theorem flatMap_range_getD {α : Type} (as : List (List α)) : ∀ (n : ℕ), as.length ≤ n →
    (List.range n).flatMap (fun A => as.getD A []) = as.flatten := by
  induction as with
  | nil => intro n _; simp
  | cons a as ih =>
    intro n h
    cases n with
    | zero => simp at h
    | succ n =>
      rw [List.range_succ_eq_map, List.flatMap_cons, List.flatMap_map]
      have := ih n (by simpa using h)
      simp only [List.getD_cons_zero, List.getD_cons_succ, List.flatten_cons]
      rw [this]

theorem grid_flatMap {α : Type} (G : List (List (List α))) (a : ℕ) (h : ∀ as ∈ G, as.length ≤ a) :
    (gridMA G.length a).flatMap (fun q => (G.getD q.1 []).getD q.2 []) = G.flatten.flatten := by
  unfold gridMA
  rw [List.flatMap_assoc]
  have e : (List.range G.length).flatMap
      (fun M => ((List.range a).map (fun A => (M, A))).flatMap (fun q => (G.getD q.1 []).getD q.2 [])) =
      (List.range G.length).flatMap (fun M => (G.map List.flatten).getD M []) := by
    apply List.flatMap_congr
    intro M hM
    rw [List.flatMap_map]
    show (List.range a).flatMap (fun A => (G.getD M []).getD A []) = _
    rw [flatMap_range_getD]
    · rw [List.mem_range] at hM
      simp [List.getD_eq_getElem?_getD, hM]
    · rw [List.mem_range] at hM
      apply h
      simp [List.getD_eq_getElem?_getD, hM]
  rw [e, flatMap_range_getD _ _ (by simp)]
  rw [List.flatten_flatten]

/-- Packing a deck with the groups `G` that were counted. -/
theorem packData_grouped (srt : SortBy) (deck : List DeckPt) (c : CountSt) (G : List (List (List DeckPt)))
    (hc : countData srt countInit deck = .ok c) (hG : G.flatten.flatten = deck) (hm : c.machCount = G.length)
    (ha : c.maxAlt = maxLen G.dropLast) (hd : c.maxData = maxLen G.flatten.dropLast)
    (hi : ∀ M A b, (G.getD M [])[A]? = some b → c.idx.get M A = max 1 (b.length - 1))
    (hi0 : ∀ M A, (G.getD M [])[A]? = none → c.idx.get M A = 0)
    (h1 : ∀ as ∈ G, as.length ≤ maxLen G.dropLast) (h2 : ∀ b ∈ G.flatten, 2 ≤ b.length)
    (h3 : ∀ b ∈ G.flatten, b.length ≤ maxLen G.flatten.dropLast) :
    ∃ ws, packData srt deck = .ok ws ∧ ws.map Prod.snd = deck ∧
      ∀ M A D p, ((M, A, D), p) ∈ ws ↔ ((G.getD M []).getD A [])[D]? = some p := by
  have hmem : ∀ (M A : ℕ) (b : List DeckPt), (G.getD M [])[A]? = some b → b ∈ G.flatten := by
    intro M A b hb
    have hmem : b ∈ G.getD M [] := List.mem_of_getElem? hb
    rw [List.getD_eq_getElem?_getD] at hmem
    cases hq : G[M]? with
    | none => rw [hq] at hmem; simp at hmem
    | some q =>
      rw [hq] at hmem
      exact List.mem_flatten.2 ⟨q, List.mem_of_getElem? hq, hmem⟩
  have key := packMA_ok c (fun q => (G.getD q.1 []).getD q.2 []) (gridMA G.length c.maxAlt) (by
    rintro ⟨M, A⟩ _
    cases hb : (G.getD M [])[A]? with
    | none =>
      left
      refine ⟨hi0 M A hb, ?_⟩
      simp only [List.getD_eq_getElem?_getD] at hb ⊢
      rw [hb]; rfl
    | some b =>
      right
      have hb2 := h2 b (hmem M A b hb)
      have hb3 := h3 b (hmem M A b hb)
      have hg := hi M A b hb
      have hp : (G.getD M []).getD A [] = b := by
        simp only [List.getD_eq_getElem?_getD] at hb ⊢
        rw [hb]; rfl
      simp only [hp]
      rw [← hd] at hb3
      rw [hg]
      omega)
  rw [grid_flatMap G c.maxAlt (by rw [ha]; exact h1), hG] at key
  refine ⟨_, by simp only [packData, hc]; rw [hm]; exact key, ?_, ?_⟩
  · rw [List.map_flatMap]
    have : (gridMA G.length c.maxAlt).flatMap (fun q => (((G.getD q.1 []).getD q.2 []).zipIdx.map
        (fun r => ((q.1, q.2, r.2), r.1))).map Prod.snd) =
        (gridMA G.length c.maxAlt).flatMap (fun q => (G.getD q.1 []).getD q.2 []) := by
      apply List.flatMap_congr
      intro q _
      rw [List.map_map]
      exact List.zipIdx_map_fst 0 _
    rw [this, grid_flatMap G c.maxAlt (by rw [ha]; exact h1), hG]
  · intro M A D p
    simp only [List.mem_flatMap, List.mem_map, Prod.mk.injEq]
    constructor
    · rintro ⟨⟨M', A'⟩, _, ⟨q, D'⟩, hq, ⟨h4, h5, h6⟩, h7⟩
      simp only at h4 h5 h6 h7
      subst h4 h5 h6 h7
      exact List.mem_zipIdx_iff_getElem?.1 hq
    · intro hp
      refine ⟨(M, A), ?_, (p, D), List.mem_zipIdx_iff_getElem?.2 hp, ⟨rfl, rfl, rfl⟩, rfl⟩
      unfold gridMA
      simp only [List.mem_flatMap, List.mem_map, List.mem_range, Prod.mk.injEq]
      have hA : A < (G.getD M []).length := by
        by_contra hA
        have e : (G.getD M []).getD A [] = [] := by
          rw [List.getD_eq_getElem?_getD, List.getElem?_eq_none (by omega)]; rfl
        rw [e] at hp
        simp at hp
      have hM : M < G.length := by
        by_contra hM
        have e : G.getD M [] = [] := by
          rw [List.getD_eq_getElem?_getD, List.getElem?_eq_none (by omega)]; rfl
        rw [e] at hA
        simp at hA
      refine ⟨M, hM, A, ?_, rfl, rfl⟩
      rw [ha]
      refine lt_of_lt_of_le hA (h1 _ ?_)
      simp [List.getD_eq_getElem?_getD, hM]

/-- **C17 (packing, partial).** If no flight condition has a single point only, and the last Mach number has no more
altitudes and the last flight condition no more points than some earlier one, then every deck that is accepted is
packed faithfully: the points are written once each in deck order, and the entry `(M, A, D)` is exactly the `D`-th
point of the `A`-th altitude of the `M`-th Mach number.  Without these conditions it fails, see below. -/
theorem packData_faithful_partial (srt : SortBy) (deck : List DeckPt) (hne : deck ≠ []) (c : CountSt)
    (hc : countData srt countInit deck = .ok c) :
    ∃ G, G.flatten.flatten = deck ∧ Grouped G ∧
      ((∀ as ∈ G, as.length ≤ maxLen G.dropLast) → (∀ b ∈ G.flatten, 2 ≤ b.length) →
        (∀ b ∈ G.flatten, b.length ≤ maxLen G.flatten.dropLast) →
        ∃ ws, packData srt deck = .ok ws ∧ ws.map Prod.snd = deck ∧
          ∀ M A D p, ((M, A, D), p) ∈ ws ↔ ((G.getD M []).getD A [])[D]? = some p) := by
  rcases countData_spec srt deck hne with h | ⟨G, c', e, hG, grp, hm, ha, hd, hi, hi0, -⟩
  · rw [h] at hc; cases hc
  rw [hc] at e
  cases e
  refine ⟨G, hG, grp, ?_⟩
  intro h1 h2 h3
  exact packData_grouped srt deck c G hc hG hm ha hd hi hi0 h1 h2 h3

/-- A regular deck: two Mach numbers with two altitudes each and two points everywhere. -/
def deckEx : List DeckPt :=
  [⟨0, 0, [1]⟩, ⟨0, 0, [2]⟩, ⟨0, 1000, [3]⟩, ⟨0, 1000, [4]⟩,
   ⟨1/2, 0, [5]⟩, ⟨1/2, 0, [6]⟩, ⟨1/2, 1000, [7]⟩, ⟨1/2, 1000, [8]⟩]

example : ∃ ws, packData .mach deckEx = .ok ws ∧ ws.map Prod.snd = deckEx ∧
    ((1, 0, 1), ⟨1/2, 0, [6]⟩) ∈ ws := by
  refine ⟨(packData .mach deckEx).toOption.getD [], ?_, ?_, ?_⟩ <;> decide +kernel

/-- **C17 (negation).** (a) A flight condition with a single point is counted as two, so the packing runs past the
array; (b) altitudes of the last Mach number beyond the earlier maximum are lost silently; (c) a last flight condition
with the most points raises. -/
theorem packData_violated :
    packData .mach [⟨0, 0, [1]⟩, ⟨0, 1000, [2]⟩, ⟨1/2, 0, [3]⟩, ⟨1/2, 1000, [4]⟩] = .error .indexError ∧
    (∃ ws, packData .mach (deckEx ++ [⟨1/2, 2000, [9]⟩, ⟨1/2, 2000, [10]⟩]) = .ok ws ∧ ws.length = 8 ∧
      ws.map Prod.snd = deckEx) ∧
    packData .mach (deckEx ++ [⟨1/2, 1000, [9]⟩]) = .error .indexError ∧
    (∃ ws, packData .mach [⟨0, 0, [1]⟩, ⟨0, 1000, [2]⟩, ⟨0, 1000, [3]⟩, ⟨1/2, 0, [4]⟩, ⟨1/2, 0, [5]⟩,
        ⟨1/2, 1000, [6]⟩, ⟨1/2, 1000, [7]⟩] = .ok ws ∧ ((0, 0, 1), ⟨0, 1000, [2]⟩) ∈ ws) := by
  refine ⟨by decide +kernel, ⟨(packData .mach (deckEx ++ [⟨1/2, 2000, [9]⟩, ⟨1/2, 2000, [10]⟩])).toOption.getD [], ?_, ?_, ?_⟩,
    by decide +kernel, ⟨(packData .mach [⟨0, 0, [1]⟩, ⟨0, 1000, [2]⟩, ⟨0, 1000, [3]⟩, ⟨1/2, 0, [4]⟩, ⟨1/2, 0, [5]⟩,
        ⟨1/2, 1000, [6]⟩, ⟨1/2, 1000, [7]⟩]).toOption.getD [], ?_, ?_⟩⟩ <;> decide +kernel

end Verif
