import Mathlib.Tactic.Linarith
import Verif.Model.LinkPhases

/-!
# C75 Consecutive phases are joined

Properties of `link_phases`: which phases are joined, when the joint is a connection and when a constraint, that the
result does not depend on the iteration order of sets, and what a trajectory that meets all the joints satisfies.
-/

namespace Verif.LinkPhases

/-! ## Names -/

theorem mem_sorted {l : List String} {x : String} : x ∈ sorted l ↔ x ∈ l := List.mem_insertionSort _

theorem sorted_perm {l l' : List String} (h : l.Perm l') : sorted l = sorted l' := by
  have hp : (sorted l).Perm (sorted l') :=
    (List.perm_insertionSort _ l).trans (h.trans (List.perm_insertionSort _ l').symm)
  exact hp.eq_of_pairwise' (List.pairwise_insertionSort _ l) (List.pairwise_insertionSort _ l')

theorem sorted_nodup {l : List String} (h : l.Nodup) : (sorted l).Nodup :=
  (List.perm_insertionSort _ l).nodup_iff.2 h

theorem isInitial_append (x : String) : isInitial ("initial_" ++ x) = true := by
  unfold isInitial
  rw [String.toList_append]
  simp

theorem stem_append (x : String) : stem ("initial_" ++ x) = x := by
  unfold stem
  rw [if_pos (isInitial_append x), String.toList_append]
  have : "initial_".toList.length = 8 := by decide
  rw [List.drop_append_of_le_length (by omega), List.drop_eq_nil_of_le (by omega)]
  simp

theorem append_stem {x : String} (h : isInitial x = true) : "initial_" ++ stem x = x := by
  apply String.toList_inj.1
  unfold stem
  rw [if_pos h, String.toList_append, String.toList_ofList]
  unfold isInitial at h
  rw [List.isPrefixOf_iff_prefix] at h
  obtain ⟨t, ht⟩ := h
  have : "initial_".toList.length = 8 := by decide
  rw [← ht, List.drop_append_of_le_length (by omega), List.drop_eq_nil_of_le (by omega)]
  simp

/-! ## Loops that may raise -/

theorem runAll_ok {f : String → Except Err (List Act)} {l : List String} {a : List Act} (h : runAll f l = .ok a) :
    ∀ x, x ∈ a ↔ ∃ v ∈ l, ∃ b, f v = .ok b ∧ x ∈ b := by
  induction l generalizing a with
  | nil => cases h; simp
  | cons v vs ih =>
    intro x
    unfold runAll at h
    split at h
    · cases h
    · rename_i b hb
      split at h
      · cases h
      · rename_i c hc
        cases h
        simp only [List.mem_append, ih hc x, List.mem_cons, exists_eq_or_imp, hb]
        constructor
        · rintro (h | h)
          · exact .inl ⟨_, rfl, h⟩
          · exact .inr h
        · rintro (⟨_, h1, h⟩ | h)
          · cases h1; exact .inl h
          · exact .inr h

theorem runAll_each {f : String → Except Err (List Act)} {l : List String} {a : List Act} (h : runAll f l = .ok a) :
    ∀ v ∈ l, ∃ b, f v = .ok b := by
  induction l generalizing a with
  | nil => simp
  | cons v vs ih =>
    unfold runAll at h
    split at h
    · cases h
    · rename_i b hb
      split at h
      · cases h
      · rename_i c hc
        intro w hw
        rcases List.mem_cons.1 hw with rfl | hw
        · exact ⟨_, hb⟩
        · exact ih hc w hw

theorem runAll_total {f : String → Except Err (List Act)} {l : List String} (h : ∀ v ∈ l, ∃ b, f v = .ok b) :
    ∃ a, runAll f l = .ok a := by
  induction l with
  | nil => exact ⟨[], rfl⟩
  | cons v vs ih =>
    obtain ⟨b, hb⟩ := h v (by simp)
    obtain ⟨a, ha⟩ := ih fun w hw => h w (by simp [hw])
    exact ⟨b ++ a, by simp [runAll, hb, ha]⟩

theorem commonLoop_mem (cd : Bool) (p1 p2 : Phase) (l : List String) (st : Option (Option Bool)) (x : Act) :
    x ∈ (commonLoop cd p1 p2 l st).1 ↔ ∃ v ∈ l, x ∈ commonActs cd p1 p2 v := by
  induction l generalizing st with
  | nil => simp [commonLoop]
  | cons v vs ih => simp [commonLoop, ih]

/-- The value left in `opt2` is that of the last common variable; without common variables it is the one left by the
pair before. -/
theorem commonLoop_opt2 (cd : Bool) (p1 p2 : Phase) (l : List String) (st : Option (Option Bool)) :
    (commonLoop cd p1 p2 l st).2 = match l.getLast? with
      | .none => st
      | some v => some (optimize p2 v) := by
  induction l generalizing st with
  | nil => rfl
  | cons v vs ih =>
    rw [commonLoop, ih]
    cases vs with
    | nil => rfl
    | cons w ws => simp [List.getLast?_cons]

/-! ## Members of the list of actions of a pair -/

/-- All actions of a pair of phases come from one of the three loops. -/
theorem linkPair_mem {cd : Bool} {p1 p2 : Phase} {st st' : Option (Option Bool)} {a : List Act}
    (h : linkPair cd p1 p2 st = .ok (a, st')) (x : Act) : x ∈ a ↔
      (∃ v ∈ p1.vars, v ∈ p2.vars ∧ x ∈ commonActs cd p1 p2 v) ∨
      (∃ v ∈ p2.vars, isInitial v = true ∧ ∃ b, downActs cd p1 p2 st' v = .ok b ∧ x ∈ b) ∨
      (∃ v ∈ p1.vars, isInitial v = true ∧ ∃ b, upActs cd p1 p2 st' v = .ok b ∧ x ∈ b) := by
  unfold linkPair at h
  simp only at h
  split at h
  · cases h
  · rename_i d hd
    split at h
    · cases h
    · rename_i u hu
      simp only [Except.ok.injEq, Prod.mk.injEq] at h
      obtain ⟨rfl, rfl⟩ := h
      rw [List.mem_append, List.mem_append, commonLoop_mem, runAll_ok hd, runAll_ok hu, or_assoc]
      simp only [mem_sorted, List.mem_filter, decide_eq_true_eq, and_assoc]

/-- The names of the two phases an action refers to. -/
def ends : Act → Option (String × String)
  | .link p1 p2 _ _ _ => some (p1, p2)
  | .linkage p1 p2 _ _ _ _ => some (p1, p2)
  | .inputOff _ _ => none

/-- Whether an action is a connection. -/
def connected : Act → Bool
  | .link _ _ _ c _ => c
  | .linkage _ _ _ _ c _ => c
  | .inputOff _ _ => false

/-- Scaling given with an action. -/
def kwOf : Act → Kw
  | .link _ _ _ _ k => k
  | .linkage _ _ _ _ _ k => k
  | .inputOff _ _ => Kw.none

theorem findScaling_acts (var : String) (p1 p2 : Phase) (o : Option Bool) (x : Act)
    (h : x ∈ (findScaling var p1 p2 o).1) : ∃ v, x = .inputOff p2.name v ∧ v ∈ p2.states ∧ o = none ∧ v ≠ "time" := by
  unfold findScaling at h
  split at h
  · simp at h
  · split at h
    · rename_i v _ hc
      simp only [List.mem_singleton] at h
      exact ⟨v, h, hc.2.2, hc.1, hc.2.1⟩
    · simp at h

theorem analyticScaling_acts {c : Bool} {var : String} {p1 p2 : Phase} {st : Option (Option Bool)} {s : List Act × Kw}
    (h : analyticScaling c var p1 p2 st = .ok s) (x : Act) (hx : x ∈ s.1) : ∃ v, x = .inputOff p2.name v := by
  unfold analyticScaling at h
  split at h
  · cases h; simp at hx
  · split at h
    · cases h
    · cases h
      obtain ⟨v, hv, _⟩ := findScaling_acts _ _ _ _ _ hx
      exact ⟨v, hv⟩

/-- The connection flag and scaling of the link of a common variable. -/
theorem commonActs_mem {cd : Bool} {p1 p2 : Phase} {var : String} {x : Act} (h : x ∈ commonActs cd p1 p2 var) :
    (∃ v, x = .inputOff p2.name v) ∨ ∃ c k, x = .link p1.name p2.name var c k ∧
      (c = true → wantConnect cd p2 var = true ∧ optimize p2 var ≠ some false ∧
        truthy (pinInitial p2 var) = false ∧ k = Kw.none) ∧
      (c = false → k = (findScaling var p1 p2 (optimize p2 var)).2) := by
  unfold commonActs at h
  split at h
  · simp at h
  · split at h
    · simp at h
    · simp only [List.mem_append, List.mem_singleton] at h
      rcases h with h | h
      · left
        revert h
        generalize (if optimize p2 var = some false then false
          else if truthy (pinInitial p2 var) = true then false else wantConnect cd p2 var) = c
        intro h
        cases c with
        | true => simp at h
        | false =>
          obtain ⟨v, hv, _⟩ := findScaling_acts _ _ _ _ _ h
          exact ⟨v, hv⟩
      · right
        refine ⟨_, _, h, ?_, ?_⟩
        · intro hc
          rw [if_pos hc]
          by_cases h1 : optimize p2 var = some false
          · rw [if_pos h1] at hc; cases hc
          · rw [if_neg h1] at hc
            by_cases h2 : truthy (pinInitial p2 var) = true
            · rw [if_pos h2] at hc; cases hc
            · rw [if_neg h2] at hc
              exact ⟨hc, h1, by simpa using h2, rfl⟩
        · intro hc
          rw [if_neg (by rw [hc]; simp)]

theorem downActs_mem {cd : Bool} {p1 p2 : Phase} {st : Option (Option Bool)} {var : String} {b : List Act}
    (h : downActs cd p1 p2 st var = .ok b) {x : Act} (hx : x ∈ b) :
    (∃ v, x = .inputOff p2.name v) ∨ (stem var ∈ p1.vars ∧ ∃ k,
      x = .linkage p1.name p2.name (stem var) var (wantConnect cd p2 (stem var)) k ∧
      (wantConnect cd p2 (stem var) = true → k = Kw.none)) := by
  unfold downActs at h
  split at h
  · cases h; simp at hx
  · rename_i hm
    split at h
    · cases h
    · rename_i s hs
      cases h
      simp only [List.mem_append, List.mem_singleton] at hx
      rcases hx with hx | hx
      · exact .inl (analyticScaling_acts hs x hx)
      · refine .inr ⟨not_not.1 hm, _, hx, fun hc => ?_⟩
        unfold analyticScaling at hs
        rw [if_pos hc] at hs
        cases hs; rfl

theorem upActs_mem {cd : Bool} {p1 p2 : Phase} {st : Option (Option Bool)} {var : String} {b : List Act}
    (h : upActs cd p1 p2 st var = .ok b) {x : Act} (hx : x ∈ b) :
    (∃ v, x = .inputOff p2.name v) ∨ (stem var ∈ p2.vars ∧ ¬(var ∈ p2.vars ∧ isInitial var = true) ∧ ∃ k,
      x = .link p1.name p2.name (stem var) (wantConnect cd p2 (stem var)) k ∧
      (wantConnect cd p2 (stem var) = true → k = Kw.none)) := by
  unfold upActs at h
  split at h
  · cases h; simp at hx
  · rename_i hm
    split at h
    · cases h; simp at hx
    · rename_i hn
      split at h
      · cases h
      · rename_i s hs
        cases h
        simp only [List.mem_append, List.mem_singleton] at hx
        rcases hx with hx | hx
        · exact .inl (analyticScaling_acts hs x hx)
        · refine .inr ⟨not_not.1 hm, fun hv => hn (.inl (by simpa using hv)), _, hx, fun hc => ?_⟩
          unfold analyticScaling at hs
          rw [if_pos hc] at hs
          cases hs; rfl

/-- Every action of a pair is one of these: a state of the second phase no longer takes its initial value from outside,
or a joint between the two phases that carries scaling only if it is a constraint. -/
theorem linkPair_shape {cd : Bool} {p1 p2 : Phase} {st st' : Option (Option Bool)} {a : List Act}
    (h : linkPair cd p1 p2 st = .ok (a, st')) {x : Act} (hx : x ∈ a) :
    (∃ v, x = .inputOff p2.name v) ∨
      (ends x = some (p1.name, p2.name) ∧ (connected x = true → cd = true ∧ kwOf x = Kw.none)) := by
  have hw : ∀ v, wantConnect cd p2 v = true → cd = true := by
    intro v hv; unfold wantConnect at hv; simp only [Bool.and_eq_true] at hv; exact hv.1
  rcases (linkPair_mem h x).1 hx with ⟨v, _, _, hv⟩ | ⟨v, _, _, b, hb, hv⟩ | ⟨v, _, _, b, hb, hv⟩
  · rcases commonActs_mem hv with h | ⟨c, k, rfl, h1, _⟩
    · exact .inl h
    · exact .inr ⟨rfl, fun hc => ⟨hw _ (h1 hc).1, (h1 hc).2.2.2⟩⟩
  · rcases downActs_mem hb hv with h | ⟨_, k, rfl, hk⟩
    · exact .inl h
    · exact .inr ⟨rfl, fun hc => ⟨hw _ hc, hk hc⟩⟩
  · rcases upActs_mem hb hv with h | ⟨_, _, k, rfl, hk⟩
    · exact .inl h
    · exact .inr ⟨rfl, fun hc => ⟨hw _ hc, hk hc⟩⟩

/-! ## The whole trajectory -/

/-- `p1` comes directly before `p2` in the list. -/
def Adjacent (l : List Phase) (p1 p2 : Phase) : Prop := ∃ a b, l = a ++ p1 :: p2 :: b

theorem adjacent_cons {p q : Phase} {l : List Phase} {p1 p2 : Phase} :
    Adjacent (p :: q :: l) p1 p2 ↔ (p1 = p ∧ p2 = q) ∨ Adjacent (q :: l) p1 p2 := by
  constructor
  · rintro ⟨a, b, h⟩
    cases a with
    | nil => simp only [List.nil_append, List.cons.injEq] at h; exact .inl ⟨h.1.symm, h.2.1.symm⟩
    | cons c a => simp only [List.cons_append, List.cons.injEq] at h; exact .inr ⟨a, b, h.2⟩
  · rintro (⟨rfl, rfl⟩ | ⟨a, b, h⟩)
    · exact ⟨[], l, rfl⟩
    · exact ⟨p :: a, b, by rw [h]; rfl⟩

theorem not_adjacent_single {p p1 p2 : Phase} : ¬Adjacent [p] p1 p2 := by
  rintro ⟨a, b, h⟩
  have := congrArg List.length h
  simp at this
  omega

/-- Every action comes from a pair of consecutive phases whose second member is not the first reserve phase. -/
theorem linkFrom_sound {cd : Bool} {reserve : Option String} {p : Phase} {ps : List Phase} {st : Option (Option Bool)}
    {a : List Act} (h : linkFrom cd reserve p ps st = .ok a) {x : Act} (hx : x ∈ a) :
    ∃ p1 p2 s s' b, Adjacent (p :: ps) p1 p2 ∧ reserve ≠ some p2.name ∧ linkPair cd p1 p2 s = .ok (b, s') ∧ x ∈ b := by
  induction ps generalizing p st a with
  | nil => cases h; simp at hx
  | cons q qs ih =>
    unfold linkFrom at h
    split at h
    · obtain ⟨p1, p2, s, s', b, h1, h2⟩ := ih h hx
      exact ⟨p1, p2, s, s', b, adjacent_cons.2 (.inr h1), h2⟩
    · rename_i hr
      split at h
      · cases h
      · rename_i a1 st' h1
        split at h
        · cases h
        · rename_i b hb
          cases h
          rcases List.mem_append.1 hx with hx | hx
          · exact ⟨p, q, _, _, _, adjacent_cons.2 (.inl ⟨rfl, rfl⟩), hr, h1, hx⟩
          · obtain ⟨p1, p2, s, s', b, h1, h2⟩ := ih hb hx
            exact ⟨p1, p2, s, s', b, adjacent_cons.2 (.inr h1), h2⟩

/-- Every pair of consecutive phases whose second member is not the first reserve phase is treated. -/
theorem linkFrom_complete {cd : Bool} {reserve : Option String} {p : Phase} {ps : List Phase}
    {st : Option (Option Bool)} {a : List Act} (h : linkFrom cd reserve p ps st = .ok a) {p1 p2 : Phase}
    (ha : Adjacent (p :: ps) p1 p2) (hr : reserve ≠ some p2.name) :
    ∃ s s' b, linkPair cd p1 p2 s = .ok (b, s') ∧ ∀ x ∈ b, x ∈ a := by
  induction ps generalizing p st a with
  | nil => exact absurd ha not_adjacent_single
  | cons q qs ih =>
    unfold linkFrom at h
    split at h
    · rename_i hq
      rcases adjacent_cons.1 ha with ⟨rfl, rfl⟩ | ha
      · exact absurd hq hr
      · exact ih h ha
    · split at h
      · cases h
      · rename_i a1 st' h1
        split at h
        · cases h
        · rename_i b hb
          cases h
          rcases adjacent_cons.1 ha with ⟨rfl, rfl⟩ | ha
          · exact ⟨_, _, _, h1, fun x hx => List.mem_append_left _ hx⟩
          · obtain ⟨s, s', c, h1, h2⟩ := ih hb ha
            exact ⟨s, s', c, h1, fun x hx => List.mem_append_right _ (h2 x hx)⟩

/-- A result of `link_phases` for two or more phases is a result of the loop. -/
theorem linkPhases_ok {ranks : ℕ} {parallel : Bool} {reserves : List String} {p : Phase} {ps : List Phase}
    {a : List Act} {c : Bool} (hp : ps ≠ []) (h : linkPhases ranks parallel reserves (p :: ps) = .ok (a, c)) :
    linkFrom (!(decide (ranks > 1) && parallel)) reserves.head? p ps none = .ok a ∧ c = true := by
  unfold linkPhases at h
  rw [if_neg (by cases ps with | nil => exact absurd rfl hp | cons _ _ => simp)] at h
  simp only at h
  split at h
  · cases h
  · rename_i b hb
    cases h
    exact ⟨hb, rfl⟩

/-- Joints only ever go from a phase to the phase directly after it, and never into the first reserve phase. -/
theorem links_consecutive {ranks : ℕ} {parallel : Bool} {reserves : List String} {phases : List Phase}
    {a : List Act} {c : Bool} (h : linkPhases ranks parallel reserves phases = .ok (a, c)) {x : Act} (hx : x ∈ a)
    {e : String × String} (he : ends x = some e) :
    ∃ p1 p2, Adjacent phases p1 p2 ∧ e = (p1.name, p2.name) ∧ reserves.head? ≠ some p2.name := by
  match phases, h with
  | [], h => simp [linkPhases] at h; rw [h.1] at hx; simp at hx
  | [p], h => simp [linkPhases] at h; rw [h.1] at hx; simp at hx
  | p :: q :: ps, h =>
    obtain ⟨p1, p2, s, s', b, h1, h2, h3, h4⟩ := linkFrom_sound (linkPhases_ok (by simp) h).1 hx
    refine ⟨p1, p2, h1, ?_, h2⟩
    rcases linkPair_shape h3 h4 with ⟨v, rfl⟩ | ⟨h5, _⟩
    · simp [ends] at he
    · rw [h5] at he; exact (Option.some.inj he).symm

/-- When phases run in parallel on more than one rank, nothing is connected: all joints are constraints. -/
theorem links_parallel {ranks : ℕ} (hr : 1 < ranks) {reserves : List String} {phases : List Phase}
    {a : List Act} {c : Bool} (h : linkPhases ranks true reserves phases = .ok (a, c)) {x : Act} (hx : x ∈ a) :
    connected x = false := by
  match phases, h with
  | [], h => simp [linkPhases] at h; rw [h.1] at hx; simp at hx
  | [p], h => simp [linkPhases] at h; rw [h.1] at hx; simp at hx
  | p :: q :: ps, h =>
    obtain ⟨p1, p2, s, s', b, h1, h2, h3, h4⟩ := linkFrom_sound (linkPhases_ok (by simp) h).1 hx
    rcases linkPair_shape h3 h4 with ⟨v, rfl⟩ | ⟨_, h5⟩
    · rfl
    · by_contra hc
      have := (h5 (by simpa using hc)).1
      simp [hr] at this

/-- A connection never carries scaling. -/
theorem links_kw {ranks : ℕ} {parallel : Bool} {reserves : List String} {phases : List Phase}
    {a : List Act} {c : Bool} (h : linkPhases ranks parallel reserves phases = .ok (a, c)) {x : Act} (hx : x ∈ a)
    (hc : connected x = true) : kwOf x = Kw.none := by
  match phases, h with
  | [], h => simp [linkPhases] at h; rw [h.1] at hx; simp at hx
  | [p], h => simp [linkPhases] at h; rw [h.1] at hx; simp at hx
  | p :: q :: ps, h =>
    obtain ⟨p1, p2, s, s', b, h1, h2, h3, h4⟩ := linkFrom_sound (linkPhases_ok (by simp) h).1 hx
    rcases linkPair_shape h3 h4 with ⟨v, rfl⟩ | ⟨_, h5⟩
    · simp [connected] at hc
    · exact (h5 hc).2

/-- The trajectory is configured and checked exactly when it has two phases or more. -/
theorem links_configured {ranks : ℕ} {parallel : Bool} {reserves : List String} {phases : List Phase}
    {a : List Act} {c : Bool} (h : linkPhases ranks parallel reserves phases = .ok (a, c)) :
    c = decide (2 ≤ phases.length) := by
  match phases, h with
  | [], h => simp [linkPhases] at h; simp [h.2]
  | [p], h => simp [linkPhases] at h; simp [h.2]
  | p :: q :: ps, h => rw [(linkPhases_ok (by simp) h).2]; simp

/-! ## What a trajectory satisfies that meets all joints -/

/-- Values of the variables at the start and the end of the phases. -/
structure Values where
  start : String → String → ℚ
  stop : String → String → ℚ

/-- The joint holds, be it a connection or a constraint. -/
def Met (t : Values) : Act → Prop
  | .link p1 p2 v _ _ => t.stop p1 v = t.start p2 v
  | .linkage p1 p2 s v _ _ => t.stop p1 s = t.start p2 v
  | .inputOff _ _ => True

/-- `initial_x` of a phase is a parameter that holds the value of `x` at the start of the phase. -/
def Starts (t : Values) (p : Phase) : Prop :=
  ∀ x, "initial_" ++ x ∈ p.vars →
    t.start p.name ("initial_" ++ x) = t.start p.name x ∧ t.stop p.name ("initial_" ++ x) = t.start p.name x

/-- Pinned values hold. -/
def Pinned (t : Values) (p : Phase) (x : String) : Prop :=
  (∀ q, pinInitial p x = some q → t.start p.name x = q) ∧ (∀ q, pinFinal p x = some q → t.stop p.name x = q)

theorem commonActs_link {cd : Bool} {p1 p2 : Phase} {x : String}
    (h1 : ¬(optimize p1 x = some false ∧ optimize p2 x = some false))
    (h2 : ¬(truthy (pinFinal p1 x) = true ∧ truthy (pinInitial p2 x) = true)) :
    ∃ c k, Act.link p1.name p2.name x c k ∈ commonActs cd p1 p2 x := by
  unfold commonActs
  rw [if_neg h1, if_neg h2]
  exact ⟨_, _, List.mem_append_right _ (List.mem_singleton.2 rfl)⟩

theorem truthy_iff (o : Option ℚ) : truthy o = true ↔ ∃ q, o = some q ∧ q ≠ 0 := by
  cases o <;> simp [truthy]

/-- A variable that the first phase has as a value or as `initial_` parameter, and the second too, is continuous, unless
both phases have it only as a parameter, or both fly it as a prescribed control, or both pin it to different values. -/
theorem linkPair_continuous {cd : Bool} {p1 p2 : Phase} {st st' : Option (Option Bool)} {a : List Act}
    (h : linkPair cd p1 p2 st = .ok (a, st')) {t : Values} (hm : ∀ x ∈ a, Met t x)
    (hs2 : Starts t p2) {x : String} (hx : isInitial x = false)
    (h1 : Pinned t p1 x) (h2 : Pinned t p2 x)
    (hc1 : x ∈ p1.vars ∨ "initial_" ++ x ∈ p1.vars) (hc2 : x ∈ p2.vars ∨ "initial_" ++ x ∈ p2.vars)
    (hab : ¬(x ∉ p1.vars ∧ "initial_" ++ x ∈ p2.vars))
    (hst : ¬(optimize p1 x = some false ∧ optimize p2 x = some false))
    (hpin : ∀ q r, pinFinal p1 x = some q → pinInitial p2 x = some r → q ≠ 0 → r ≠ 0 → q = r) :
    t.stop p1.name x = t.start p2.name x := by
  have hmem := linkPair_mem h
  by_cases v1 : x ∈ p1.vars
  · by_cases v2 : x ∈ p2.vars
    · by_cases hp : truthy (pinFinal p1 x) = true ∧ truthy (pinInitial p2 x) = true
      · obtain ⟨q, hq, hq0⟩ := (truthy_iff _).1 hp.1
        obtain ⟨r, hr, hr0⟩ := (truthy_iff _).1 hp.2
        rw [h1.2 q hq, h2.1 r hr, hpin q r hq hr hq0 hr0]
      · obtain ⟨c, k, hk⟩ := commonActs_link (cd := cd) hst hp
        exact hm _ ((hmem _).2 (.inl ⟨x, v1, v2, hk⟩))
    · have v2 := hc2.resolve_left v2
      have hd : ∃ b, downActs cd p1 p2 st' ("initial_" ++ x) = .ok b := by
        unfold linkPair at h
        simp only at h
        split at h
        · cases h
        · rename_i d hd
          split at h
          · cases h
          · simp only [Except.ok.injEq, Prod.mk.injEq] at h
            obtain ⟨rfl, rfl⟩ := h
            exact runAll_each hd _ (mem_sorted.2 (List.mem_filter.2 ⟨v2, isInitial_append x⟩))
      obtain ⟨b, hb⟩ := hd
      have hb' := hb
      unfold downActs at hb
      rw [stem_append, if_neg (by simpa using v1)] at hb
      split at hb
      · cases hb
      · rename_i s hs
        cases hb
        have := hm _ ((hmem _).2 (.inr (.inl ⟨_, v2, isInitial_append x, _, hb',
          List.mem_append_right _ (List.mem_singleton.2 rfl)⟩)))
        exact this.trans (hs2 x v2).1
  · have v1' := hc1.resolve_left v1
    have v2' : "initial_" ++ x ∉ p2.vars := fun hv => hab ⟨v1, hv⟩
    have v2 := hc2.resolve_right v2'
    have hd : ∃ b, upActs cd p1 p2 st' ("initial_" ++ x) = .ok b := by
      unfold linkPair at h
      simp only at h
      split at h
      · cases h
      · split at h
        · cases h
        · rename_i u hu
          simp only [Except.ok.injEq, Prod.mk.injEq] at h
          obtain ⟨rfl, rfl⟩ := h
          exact runAll_each hu _ (mem_sorted.2 (List.mem_filter.2 ⟨v1', isInitial_append x⟩))
    obtain ⟨b, hb⟩ := hd
    have hb' := hb
    unfold upActs at hb
    rw [stem_append, if_neg (by simpa using v2), if_neg (by simp [v2', hx])] at hb
    split at hb
    · cases hb
    · rename_i s hs
      cases hb
      exact hm _ ((hmem _).2 (.inr (.inr ⟨_, v1', isInitial_append x, _, hb',
        List.mem_append_right _ (List.mem_singleton.2 rfl)⟩)))

/-- The same for any two consecutive phases of the trajectory, apart from the start of the reserve mission. -/
theorem links_continuous_partial {ranks : ℕ} {parallel : Bool} {reserves : List String} {phases : List Phase}
    {a : List Act} {c : Bool} (h : linkPhases ranks parallel reserves phases = .ok (a, c)) {t : Values}
    (hm : ∀ x ∈ a, Met t x) (hs : ∀ p ∈ phases, Starts t p) {p1 p2 : Phase} (ha : Adjacent phases p1 p2)
    (hr : reserves.head? ≠ some p2.name) {x : String} (hx : isInitial x = false)
    (hp : ∀ p ∈ phases, Pinned t p x)
    (hc1 : x ∈ p1.vars ∨ "initial_" ++ x ∈ p1.vars) (hc2 : x ∈ p2.vars ∨ "initial_" ++ x ∈ p2.vars)
    (hab : ¬(x ∉ p1.vars ∧ "initial_" ++ x ∈ p2.vars))
    (hst : ¬(optimize p1 x = some false ∧ optimize p2 x = some false))
    (hpin : ∀ q r, pinFinal p1 x = some q → pinInitial p2 x = some r → q ≠ 0 → r ≠ 0 → q = r) :
    t.stop p1.name x = t.start p2.name x := by
  have m1 : p1 ∈ phases := by obtain ⟨l, r, rfl⟩ := ha; simp
  have m2 : p2 ∈ phases := by obtain ⟨l, r, rfl⟩ := ha; simp
  match phases, h with
  | [], h => obtain ⟨l, r, h⟩ := ha; simp at h
  | [p], h => exact absurd ha not_adjacent_single
  | p :: q :: ps, h =>
    obtain ⟨s, s', b, hb, hba⟩ := linkFrom_complete (linkPhases_ok (by simp) h).1 ha hr
    exact linkPair_continuous hb (fun y hy => hm y (hba y hy)) (hs _ m2) hx (hp _ m1) (hp _ m2) hc1 hc2 hab
      hst hpin

/-! ## Order of sets, and each variable joined once -/

theorem runAll_congr {f g : String → Except Err (List Act)} (h : ∀ v, f v = g v) (l : List String) :
    runAll f l = runAll g l := by
  rw [show f = g from funext h]

/-- The result does not depend on the order in which the sets of variables are traversed, so all ranks of a parallel run
agree. -/
theorem linkPair_perm (cd : Bool) (p1 p2 : Phase) (st : Option (Option Bool)) {v1 v2 : List String}
    (h1 : v1.Perm p1.vars) (h2 : v2.Perm p2.vars) :
    linkPair cd { p1 with vars := v1 } { p2 with vars := v2 } st = linkPair cd p1 p2 st := by
  have hc : sorted (v1.filter (· ∈ v2)) = sorted (p1.vars.filter (· ∈ p2.vars)) := by
    have : v1.filter (fun x => decide (x ∈ v2)) = v1.filter (fun x => decide (x ∈ p2.vars)) :=
      List.filter_congr fun x _ => by simp [h2.mem_iff]
    rw [this]
    exact sorted_perm (h1.filter _)
  have hd : sorted (v2.filter isInitial) = sorted (p2.vars.filter isInitial) := sorted_perm (h2.filter _)
  have hu : sorted (v1.filter isInitial) = sorted (p1.vars.filter isInitial) := sorted_perm (h1.filter _)
  have hl : ∀ l s, commonLoop cd { p1 with vars := v1 } { p2 with vars := v2 } l s = commonLoop cd p1 p2 l s := by
    intro l
    induction l with
    | nil => intro s; rfl
    | cons v vs ih => intro s; simp only [commonLoop, ih]; rfl
  have hda : ∀ s v, downActs cd { p1 with vars := v1 } { p2 with vars := v2 } s v = downActs cd p1 p2 s v := by
    intro s v
    have : (stem v ∉ v1) = (stem v ∉ p1.vars) := by simp [h1.mem_iff]
    simp only [downActs, this]
    rfl
  have hua : ∀ s v, upActs cd { p1 with vars := v1 } { p2 with vars := v2 } s v = upActs cd p1 p2 s v := by
    intro s v
    have : (stem v ∉ v2) = (stem v ∉ p2.vars) := by simp [h2.mem_iff]
    have h3 : (v ∈ v2.filter isInitial) = (v ∈ p2.vars.filter isInitial) := by
      rw [(h2.filter _).mem_iff]
    have h4 : (stem v ∈ v2.filter isInitial) = (stem v ∈ p2.vars.filter isInitial) := by
      rw [(h2.filter _).mem_iff]
    simp only [upActs, this, h3, h4]
    rfl
  unfold linkPair
  simp only [hc, hd, hu, hl]
  rw [runAll_congr (hda _), runAll_congr (hua _)]

/-- The variable of the second phase that is joined. -/
def target : Act → Option String
  | .link _ _ v _ _ => some v
  | .linkage _ _ _ v _ _ => some v
  | .inputOff _ _ => none

theorem filterMap_target_off {l : List Act} (h : ∀ x ∈ l, ∃ p v, x = Act.inputOff p v) : l.filterMap target = [] := by
  rw [List.filterMap_eq_nil_iff]
  intro x hx
  obtain ⟨p, v, rfl⟩ := h x hx
  rfl

theorem commonActs_target (cd : Bool) (p1 p2 : Phase) (v : String) :
    ((commonActs cd p1 p2 v).filterMap target).Sublist [v] := by
  unfold commonActs
  split
  · simp
  · split
    · simp
    · simp only [List.filterMap_append]
      rw [filterMap_target_off]
      · simp [target]
      · intro x hx
        revert hx
        generalize (if optimize p2 v = some false then false
          else if truthy (pinInitial p2 v) = true then false else wantConnect cd p2 v) = c
        intro hx
        cases c with
        | true => simp at hx
        | false => obtain ⟨w, hw, _⟩ := findScaling_acts _ _ _ _ _ hx; exact ⟨_, _, hw⟩

theorem commonLoop_target (cd : Bool) (p1 p2 : Phase) (l : List String) (st : Option (Option Bool)) :
    ((commonLoop cd p1 p2 l st).1.filterMap target).Sublist l := by
  induction l generalizing st with
  | nil => simp [commonLoop]
  | cons v vs ih =>
    simp only [commonLoop, List.filterMap_append]
    exact (commonActs_target cd p1 p2 v).append (ih _)

theorem runAll_target {f : String → Except Err (List Act)} {g : String → String}
    (hf : ∀ v b, f v = .ok b → (b.filterMap target).Sublist [g v]) {l : List String} {a : List Act}
    (h : runAll f l = .ok a) : (a.filterMap target).Sublist (l.map g) := by
  induction l generalizing a with
  | nil => cases h; simp
  | cons v vs ih =>
    unfold runAll at h
    split at h
    · cases h
    · rename_i b hb
      split at h
      · cases h
      · rename_i c hc
        cases h
        rw [List.filterMap_append, List.map_cons]
        exact (hf v b hb).append (ih hc)

theorem downActs_target {cd : Bool} {p1 p2 : Phase} {st : Option (Option Bool)} (v : String) (b : List Act)
    (h : downActs cd p1 p2 st v = .ok b) : (b.filterMap target).Sublist [id v] := by
  unfold downActs at h
  split at h
  · cases h; simp
  · split at h
    · cases h
    · rename_i s hs
      cases h
      rw [List.filterMap_append, filterMap_target_off]
      · simp [target]
      · intro x hx
        obtain ⟨w, hw⟩ := analyticScaling_acts hs x hx
        exact ⟨_, _, hw⟩

theorem upActs_target {cd : Bool} {p1 p2 : Phase} {st : Option (Option Bool)} (v : String) (b : List Act)
    (h : upActs cd p1 p2 st v = .ok b) : (b.filterMap target).Sublist [stem v] := by
  unfold upActs at h
  split at h
  · cases h; simp
  · split at h
    · cases h; simp
    · split at h
      · cases h
      · rename_i s hs
        cases h
        rw [List.filterMap_append, filterMap_target_off]
        · simp [target]
        · intro x hx
          obtain ⟨w, hw⟩ := analyticScaling_acts hs x hx
          exact ⟨_, _, hw⟩

/-- If the first phase has no variable both as a value and as `initial_` parameter, no variable of the second phase is
joined twice. -/
theorem linkPair_once {cd : Bool} {p1 p2 : Phase} {st st' : Option (Option Bool)} {a : List Act}
    (h : linkPair cd p1 p2 st = .ok (a, st')) (h1 : p1.vars.Nodup) (h2 : p2.vars.Nodup)
    (hx : ∀ x ∈ p1.vars, isInitial x = true → stem x ∉ p1.vars) : (a.filterMap target).Nodup := by
  unfold linkPair at h
  simp only at h
  split at h
  · cases h
  · rename_i d hd
    split at h
    · cases h
    · rename_i u hu
      simp only [Except.ok.injEq, Prod.mk.injEq] at h
      obtain ⟨rfl, rfl⟩ := h
      have n1 := (commonLoop_target cd p1 p2 (sorted (p1.vars.filter (· ∈ p2.vars))) st)
      have n2 := runAll_target downActs_target hd
      have n3 := runAll_target upActs_target hu
      have hcm : ∀ y ∈ (commonLoop cd p1 p2 (sorted (p1.vars.filter (· ∈ p2.vars))) st).1.filterMap target,
          y ∈ p1.vars ∧ y ∈ p2.vars := by
        intro y hy
        have := n1.subset hy
        simpa [mem_sorted] using this
      have hdm : ∀ y ∈ d.filterMap target, y ∈ p2.vars ∧ isInitial y = true ∧ stem y ∈ p1.vars := by
        intro y hy
        rw [List.mem_filterMap] at hy
        obtain ⟨x, hxd, hxy⟩ := hy
        obtain ⟨v, hv, b, hb, hxb⟩ := (runAll_ok hd x).1 hxd
        rw [mem_sorted, List.mem_filter] at hv
        rcases downActs_mem hb hxb with ⟨w, rfl⟩ | ⟨hs, k, rfl, _⟩
        · simp [target] at hxy
        · simp only [target, Option.some.injEq] at hxy
          subst hxy
          exact ⟨hv.1, hv.2, hs⟩
      have hum : ∀ y ∈ u.filterMap target, ∃ v ∈ p1.vars, isInitial v = true ∧ y = stem v ∧
          ¬(y ∈ p2.vars ∧ isInitial y = true) := by
        intro y hy
        rw [List.mem_filterMap] at hy
        obtain ⟨x, hxd, hxy⟩ := hy
        obtain ⟨v, hv, b, hb, hxb⟩ := (runAll_ok hu x).1 hxd
        rw [mem_sorted, List.mem_filter] at hv
        have hb' := hb
        rcases upActs_mem hb hxb with ⟨w, rfl⟩ | ⟨hs, _, k, rfl, _⟩
        · simp [target] at hxy
        · simp only [target, Option.some.injEq] at hxy
          subst hxy
          refine ⟨v, hv.1, hv.2, rfl, fun hh => ?_⟩
          unfold upActs at hb'
          rw [if_neg (by simpa using hs), if_pos (.inr (by simpa using hh))] at hb'
          cases hb'
          simp at hxb
      have m3 : ((sorted (p1.vars.filter isInitial)).map stem).Nodup := by
        refine (sorted_nodup (h1.filter _)).map_on ?_
        intro x hx y hy hxy
        rw [mem_sorted, List.mem_filter] at hx hy
        rw [← append_stem hx.2, ← append_stem hy.2, hxy]
      rw [List.filterMap_append, List.filterMap_append, List.nodup_append, List.nodup_append]
      refine ⟨⟨n1.nodup (sorted_nodup (h1.filter _)), ?_, ?_⟩, n3.nodup m3, ?_⟩
      · have := n2.nodup (by simpa using sorted_nodup (h2.filter _))
        exact this
      · rintro y hy z hz rfl
        obtain ⟨_, hb, hc⟩ := hdm y hz
        exact hx y (hcm y hy).1 hb hc
      · rintro y hy z hz rfl
        obtain ⟨v, hv, hvi, rfl, hn⟩ := hum y hz
        rcases List.mem_append.1 hy with hy | hy
        · exact hx v hv hvi (hcm _ hy).1
        · exact hn ⟨(hdm _ hy).1, (hdm _ hy).2.1⟩

/-! ## When the function raises -/

theorem analyticScaling_total {c : Bool} {var : String} {p1 p2 : Phase} {st : Option (Option Bool)}
    (h : c = true ∨ st ≠ none) : ∃ s, analyticScaling c var p1 p2 st = .ok s := by
  unfold analyticScaling
  cases c with
  | true => exact ⟨_, if_pos rfl⟩
  | false =>
    cases st with
    | none => simp at h
    | some o => exact ⟨_, rfl⟩

/-- A pair that shares a variable, or comes after such a pair, is always handled. -/
theorem linkPair_total (cd : Bool) (p1 p2 : Phase) (st : Option (Option Bool))
    (h : st ≠ none ∨ ∃ x ∈ p1.vars, x ∈ p2.vars) : ∃ a o, linkPair cd p1 p2 st = .ok (a, some o) := by
  have hst : ∃ o, (commonLoop cd p1 p2 (sorted (p1.vars.filter (· ∈ p2.vars))) st).2 = some o := by
    rw [commonLoop_opt2]
    split
    · rename_i hl
      rcases h with h | ⟨x, h1, h2⟩
      · exact Option.ne_none_iff_exists'.1 h
      · rw [List.getLast?_eq_none_iff] at hl
        have : x ∈ sorted (p1.vars.filter (· ∈ p2.vars)) := by rw [mem_sorted, List.mem_filter]; simp [h1, h2]
        rw [hl] at this
        simp at this
    · exact ⟨_, rfl⟩
  obtain ⟨o, ho⟩ := hst
  have hd : ∀ v, ∃ b, downActs cd p1 p2 (some o) v = .ok b := by
    intro v
    unfold downActs
    split
    · exact ⟨_, rfl⟩
    · obtain ⟨s, hs⟩ := analyticScaling_total (c := wantConnect cd p2 (stem v)) (var := stem v) (p1 := p1) (p2 := p2)
        (st := some o) (.inr (by simp))
      rw [hs]; exact ⟨_, rfl⟩
  have hu : ∀ v, ∃ b, upActs cd p1 p2 (some o) v = .ok b := by
    intro v
    unfold upActs
    split
    · exact ⟨_, rfl⟩
    · split
      · exact ⟨_, rfl⟩
      · obtain ⟨s, hs⟩ := analyticScaling_total (c := wantConnect cd p2 (stem v)) (var := stem v) (p1 := p1) (p2 := p2)
          (st := some o) (.inr (by simp))
        rw [hs]; exact ⟨_, rfl⟩
  unfold linkPair
  simp only [ho]
  obtain ⟨d, hd⟩ := runAll_total (f := downActs cd p1 p2 (some o)) (l := sorted (p2.vars.filter isInitial))
    fun v _ => hd v
  obtain ⟨u, hu⟩ := runAll_total (f := upActs cd p1 p2 (some o)) (l := sorted (p1.vars.filter isInitial))
    fun v _ => hu v
  rw [hd]
  simp only
  rw [hu]
  exact ⟨_, _, rfl⟩

theorem linkFrom_total (cd : Bool) (reserve : Option String) (p : Phase) (ps : List Phase) (st : Option (Option Bool))
    (h : ∀ p1 p2, Adjacent (p :: ps) p1 p2 → ∃ x ∈ p1.vars, x ∈ p2.vars) :
    ∃ a, linkFrom cd reserve p ps st = .ok a := by
  induction ps generalizing p st with
  | nil => exact ⟨_, rfl⟩
  | cons q qs ih =>
    have h' : ∀ p1 p2, Adjacent (q :: qs) p1 p2 → ∃ x ∈ p1.vars, x ∈ p2.vars :=
      fun p1 p2 ha => h p1 p2 (adjacent_cons.2 (.inr ha))
    unfold linkFrom
    split
    · exact ih q st h'
    · obtain ⟨a, o, ha⟩ := linkPair_total cd p q st (.inr (h p q (adjacent_cons.2 (.inl ⟨rfl, rfl⟩))))
      obtain ⟨b, hb⟩ := ih q (some o) h'
      rw [ha]
      simp only
      rw [hb]
      exact ⟨_, rfl⟩

/-- If consecutive phases share a variable, linking raises no error. -/
theorem links_total_partial (ranks : ℕ) (parallel : Bool) (reserves : List String) (phases : List Phase)
    (h : ∀ p1 p2, Adjacent phases p1 p2 → ∃ x ∈ p1.vars, x ∈ p2.vars) :
    ∃ r, linkPhases ranks parallel reserves phases = .ok r := by
  unfold linkPhases
  split
  · exact ⟨_, rfl⟩
  · simp only
    split
    · exact ⟨_, rfl⟩
    · rename_i p ps _
      obtain ⟨a, ha⟩ := linkFrom_total (!(decide (ranks > 1) && parallel)) reserves.head? p ps none h
      rw [ha]
      exact ⟨_, rfl⟩

/-! ## When a joint is a connection -/

/-- The joint of a common variable is a connection exactly if the user has not asked for a constraint, the second phase
does not prescribe the control, and its start is not pinned to a value other than zero. -/
theorem commonActs_connected {p1 p2 : Phase} {x : String}
    (h1 : ¬(optimize p1 x = some false ∧ optimize p2 x = some false))
    (h2 : ¬(truthy (pinFinal p1 x) = true ∧ truthy (pinInitial p2 x) = true)) :
    (∃ k, Act.link p1.name p2.name x true k ∈ commonActs true p1 p2 x) ↔
      (p2.opts.flag (linkKey x) ≠ some false ∧ optimize p2 x ≠ some false ∧
        ∀ q, pinInitial p2 x = some q → q = 0) := by
  constructor
  · rintro ⟨k, hk⟩
    rcases commonActs_mem hk with ⟨v, hv⟩ | ⟨c, k', hv, hc, _⟩
    · cases hv
    · cases hv
      obtain ⟨a, b, c, _⟩ := hc rfl
      refine ⟨fun hf => ?_, b, fun q hq => ?_⟩
      · simp [wantConnect, hf] at a
      · by_contra hq0
        rw [(truthy_iff _).2 ⟨q, hq, hq0⟩] at c
        cases c
  · rintro ⟨a, b, c⟩
    have ht : truthy (pinInitial p2 x) ≠ true := by
      intro ht
      obtain ⟨q, hq, hq0⟩ := (truthy_iff _).1 ht
      exact hq0 (c q hq)
    have hw : wantConnect true p2 x = true := by
      unfold wantConnect
      cases hf : p2.opts.flag (linkKey x) with
      | none => rfl
      | some f => cases f with
        | true => rfl
        | false => exact absurd hf a
    unfold commonActs
    rw [if_neg h1, if_neg h2]
    simp only [if_neg b, if_neg ht, hw]
    exact ⟨_, List.mem_append_right _ (List.mem_singleton.2 rfl)⟩

/-- For the time the option asked is `time_initial_direct_link`, the one `add_time_options` declares; for every other
variable it is its own `…_direct_link`, and no two variables share one. -/
theorem linkKey_spec : linkKey "time" = "time_initial_direct_link" ∧
    (∀ x, x ≠ "time" → linkKey x = x ++ "_direct_link") ∧
    (∀ x y, linkKey x = linkKey y → x = y ∨ x = "time_initial" ∨ y = "time_initial") := by
  refine ⟨rfl, fun x hx => if_neg hx, fun x y h => ?_⟩
  have key : ∀ a b : String, a ++ "_direct_link" = b ++ "_direct_link" → a = b := by
    intro a b hab
    have := congrArg String.toList hab
    simp only [String.toList_append] at this
    exact String.toList_injective (List.append_cancel_right this)
  unfold linkKey at h
  split_ifs at h with h1 h2 h2
  · exact .inl (h1.trans h2.symm)
  · exact .inr (.inr (key _ _ (by rw [← h]; decide)))
  · exact .inr (.inl (key _ _ (by rw [h]; decide)))
  · exact .inl (key _ _ h)

/-! ## Scaling of constraints -/

/-- The reference value given with the first phase is used, with its units and offset. -/
theorem scaling_upstream {var : String} (hv : var ≠ "time") {o1 o2 : Opts} {r : ℚ} {u : Option String}
    (h : o1.pair (var ++ "_ref") = (some r, u)) :
    scaling var o1 o2 = ⟨some r, (o1.pair (var ++ "_ref0")).1, u⟩ := by
  unfold scaling
  rw [if_neg hv]
  simp [h]

/-- Without one, that of the second phase is used. -/
theorem scaling_downstream {var : String} (hv : var ≠ "time") {o1 o2 : Opts}
    (h : (o1.pair (var ++ "_ref")).1 = none) :
    scaling var o1 o2 = ⟨(o2.pair (var ++ "_ref")).1, (o2.pair (var ++ "_ref0")).1, (o2.pair (var ++ "_ref")).2⟩ := by
  unfold scaling
  rw [if_neg hv]
  simp [h]

/-- Time is scaled by the start reference of the second phase, else by the duration reference of the first, without
offset. -/
theorem scaling_time (o1 o2 : Opts) :
    scaling "time" o1 o2 = match (o2.pair "time_initial_ref") with
      | (some r, u) => ⟨some r, none, u⟩
      | (none, _) => ⟨(o1.pair "time_duration_ref").1, none, (o1.pair "time_duration_ref").2⟩ := by
  unfold scaling
  rw [if_pos rfl]
  rcases h : o2.pair "time_initial_ref" with ⟨_ | r, u⟩ <;> simp

/-- A link of `time` out of a phase that integrates another variable is not scaled, and the link of the integrated
variable is scaled like time. -/
theorem scaleName_spec (p : Phase) (hp : p.states ≠ []) (var : String) :
    (var = "time" → (scaleName p var = none ↔ p.integrated ≠ "time")) ∧
    (var ≠ "time" → scaleName p var = some (if var = p.integrated then "time" else var)) := by
  have : ¬p.states.length < 1 := by
    cases h : p.states with
    | nil => exact absurd h hp
    | cons => simp
  unfold scaleName
  rw [if_neg this]
  constructor
  · rintro rfl
    rw [if_pos rfl]
    split <;> simp_all
  · intro hv
    rw [if_neg hv]
    split <;> rfl

/-! ## Concrete phases -/

/-- Options with the given flags and pairs. -/
def mkOpts (f : List (String × Bool)) (p : List (String × ℚ × String)) : Opts where
  flag k := (f.find? (·.1 = k)).map (·.2)
  pair k := match p.find? (·.1 = k) with
    | some x => (some x.2.1, some x.2.2)
    | none => (none, none)

/-- A phase of the energy method, aviary/mission/flight_phase_builder.py:430-438. -/
def flight (name : String) (f : List (String × Bool)) (p : List (String × ℚ × String)) : Phase :=
  ⟨name, ["altitude", "distance", "mach", "mass", "time"], mkOpts f p, "time", ["mass", "distance"]⟩

/-- A Breguet cruise, aviary/mission/two_dof/phases/breguet_cruise_phase.py:185-196. -/
def breguet (name : String) (f : List (String × Bool)) (p : List (String × ℚ × String)) : Phase :=
  ⟨name, ["initial_time", "initial_distance", "altitude", "mach", "mass"], mkOpts f p, "mass", []⟩

/-- A climb followed by a Breguet cruise, a descent and a reserve phase. -/
example : linkPhases 1 false ["hold"] [flight "climb" [] [], breguet "cruise" [("mach_optimize", false)] [],
      flight "descent" [("distance_direct_link", false)] [("distance_ref", 1000, "nmi")], flight "hold" [] []] =
    .ok ([.link "climb" "cruise" "altitude" true Kw.none, .link "climb" "cruise" "mach" false Kw.none,
      .link "climb" "cruise" "mass" true Kw.none,
      .linkage "climb" "cruise" "distance" "initial_distance" true Kw.none,
      .linkage "climb" "cruise" "time" "initial_time" true Kw.none,
      .link "cruise" "descent" "altitude" true Kw.none, .link "cruise" "descent" "mach" true Kw.none,
      .link "cruise" "descent" "mass" true Kw.none,
      .inputOff "descent" "distance",
      .link "cruise" "descent" "distance" false ⟨some 1000, none, some "nmi"⟩,
      .link "cruise" "descent" "time" true Kw.none], true) := by decide +kernel

/-- The hypotheses of the continuity theorem can be met: a value that stays the same everywhere meets all joints, and
`distance` goes from a flight phase to the parameter of a Breguet cruise. -/
example : ∃ (a : List Act) (t : Values), linkPhases 1 false [] [flight "climb" [] [], breguet "cruise" [] []] = .ok (a, true) ∧
    (∀ x ∈ a, Met t x) ∧ (∀ p ∈ [flight "climb" [] [], breguet "cruise" [] []], Starts t p) ∧
    Adjacent [flight "climb" [] [], breguet "cruise" [] []] (flight "climb" [] []) (breguet "cruise" [] []) ∧
    "distance" ∈ (flight "climb" [] []).vars ∧ "initial_" ++ "distance" ∈ (breguet "cruise" [] []).vars := by
  refine ⟨_, ⟨fun _ _ => 0, fun _ _ => 0⟩, rfl, ?_, ?_, ⟨[], [], rfl⟩, by decide, by decide⟩
  · intro x _; cases x <;> simp [Met]
  · intro p _ x _; simp

/-! ## Violations -/

/-- "Pinned front can't take input" (aviary/core/aviary_group.py:1064-1066) fails when the start is pinned at zero: the joint is a
connection all the same. -/
theorem zero_pin_connected_violated : ¬∀ (p1 p2 : Phase) (x : String) (q : ℚ) (k : Kw),
    pinInitial p2 x = some q → Act.link p1.name p2.name x true k ∉ commonActs true p1 p2 x := by
  intro h
  exact h (flight "a" [] []) (flight "b" [] [("distance_initial", 0, "nmi")]) "distance" 0 Kw.none (by decide +kernel)
    (by decide +kernel)

/-- "When both ends are pinned, no need to add a duplicate constraint" (aviary/core/aviary_group.py:1045-1047) fails when one of the
ends is pinned at zero. -/
theorem zero_pin_duplicate_violated : ¬∀ (cd : Bool) (p1 p2 : Phase) (x : String) (q r : ℚ),
    pinFinal p1 x = some q → pinInitial p2 x = some r → commonActs cd p1 p2 x = [] := by
  intro h
  have := h true (flight "a" [] [("distance_final", 0, "nmi")]) (flight "b" [] [("distance_initial", 0, "nmi")])
    "distance" 0 0 (by decide +kernel) (by decide +kernel)
  revert this
  decide +kernel

/-- With ends pinned at two different values the phases are not joined, nothing is raised, and the trajectory jumps. -/
theorem pinned_jump_violated : ∃ (p1 p2 : Phase) (a : List Act) (t : Values),
    linkPhases 1 false [] [p1, p2] = .ok (a, true) ∧ (∀ x ∈ a, Met t x) ∧ (∀ p ∈ [p1, p2], Starts t p) ∧
    (∀ p ∈ [p1, p2], Pinned t p "altitude") ∧ "altitude" ∈ p1.vars ∧ "altitude" ∈ p2.vars ∧
    t.stop p1.name "altitude" ≠ t.start p2.name "altitude" := by
  refine ⟨flight "a" [] [("altitude_final", 35000, "ft")], flight "b" [] [("altitude_initial", 31000, "ft")],
    [.link "a" "b" "distance" true Kw.none, .link "a" "b" "mach" true Kw.none,
      .link "a" "b" "mass" true Kw.none, .link "a" "b" "time" true Kw.none],
    ⟨fun _ v => if v = "altitude" then 31000 else 0, fun _ v => if v = "altitude" then 35000 else 0⟩, ?_, ?_, ?_, ?_, ?_, ?_, ?_⟩
  · decide +kernel
  · intro x hx
    simp only [List.mem_cons, List.not_mem_nil, or_false] at hx
    rcases hx with rfl | rfl | rfl | rfl <;> simp [Met]
  · intro p hp x hx
    exfalso
    have h1 : isInitial ("initial_" ++ x) = true := isInitial_append x
    have h2 : ∀ y ∈ ["altitude", "distance", "mach", "mass", "time"], isInitial y = false := by decide +kernel
    have hv : p.vars = ["altitude", "distance", "mach", "mass", "time"] := by
      simp only [List.mem_cons, List.not_mem_nil, or_false] at hp
      rcases hp with rfl | rfl <;> rfl
    rw [hv] at hx
    rw [h2 _ hx] at h1
    cases h1
  · intro p hp
    simp only [List.mem_cons, List.not_mem_nil, or_false] at hp
    rcases hp with rfl | rfl
    · have e1 : pinInitial (flight "a" [] [("altitude_final", 35000, "ft")]) "altitude" = none := by decide +kernel
      have e2 : pinFinal (flight "a" [] [("altitude_final", 35000, "ft")]) "altitude" = some 35000 := by decide +kernel
      constructor
      · intro q hq; rw [e1] at hq; cases hq
      · intro q hq; rw [e2] at hq; cases hq; rfl
    · have e1 : pinInitial (flight "b" [] [("altitude_initial", 31000, "ft")]) "altitude" = some 31000 := by
        decide +kernel
      have e2 : pinFinal (flight "b" [] [("altitude_initial", 31000, "ft")]) "altitude" = none := by decide +kernel
      constructor
      · intro q hq; rw [e1] at hq; cases hq; rfl
      · intro q hq; rw [e2] at hq; cases hq
  · simp [flight]
  · simp [flight]
  · simp

/-- When both phases have `x` as `initial_x` parameter, the start of the first is tied to the start of the second. -/
theorem linkPair_initial_tied {cd : Bool} {p1 p2 : Phase} {st st' : Option (Option Bool)} {a : List Act}
    (h : linkPair cd p1 p2 st = .ok (a, st')) {t : Values} (hm : ∀ x ∈ a, Met t x) (hs1 : Starts t p1)
    (hs2 : Starts t p2) {x : String} (h1 : "initial_" ++ x ∈ p1.vars) (h2 : "initial_" ++ x ∈ p2.vars)
    (hst : optimize p2 ("initial_" ++ x) = none) (hpin : pinInitial p2 ("initial_" ++ x) = none) :
    t.start p1.name x = t.start p2.name x := by
  obtain ⟨c, k, hk⟩ := commonActs_link (cd := cd) (p1 := p1) (p2 := p2) (x := "initial_" ++ x)
    (by rw [hst]; simp) (by rw [hpin]; simp [truthy])
  have := hm _ ((linkPair_mem h _).2 (.inl ⟨_, h1, h2, hk⟩))
  simp only [Met] at this
  rw [← (hs1 x h1).2, this, (hs2 x h2).1]

/-- Two Breguet cruises after one another: the second cannot begin at the time the first ends unless the first takes no
time, and nothing is raised. -/
theorem breguet_chain_violated (d1 d2 : String) : ∃ a, linkPhases 1 false [] [breguet d1 [] [], breguet d2 [] []] = .ok (a, true) ∧
    ∀ t : Values, (∀ x ∈ a, Met t x) → (∀ p ∈ [breguet d1 [] [], breguet d2 [] []], Starts t p) →
      t.start d1 "time" < t.stop d1 "time" → t.stop d1 "time" ≠ t.start d2 "time" := by
  obtain ⟨b, o, hb⟩ := linkPair_total true (breguet d1 [] []) (breguet d2 [] []) none (.inr ⟨"mass", by simp [breguet], by simp [breguet]⟩)
  refine ⟨b, ?_, ?_⟩
  · simp [linkPhases, linkFrom, hb]
  · intro t hm hs hlt he
    have := linkPair_initial_tied hb hm (hs _ (by simp)) (hs _ (by simp)) (x := "time")
      (by show _ ∈ ["initial_time", "initial_distance", "altitude", "mach", "mass"]; decide)
      (by show _ ∈ ["initial_time", "initial_distance", "altitude", "mach", "mass"]; decide) (by simp [optimize, breguet, mkOpts]) (by simp [pinInitial, breguet, mkOpts])
    have h2 : t.start d1 "time" = t.start d2 "time" := this
    rw [he, h2] at hlt
    exact absurd hlt (lt_irrefl _)

/-- A phase whose only linkable variables are the given ones. -/
def bare (name : String) (vars : List String) : Phase := ⟨name, vars, mkOpts [] [], "time", []⟩

/-- Without a common variable the name `opt2` has no value, and the constraint of an `initial_` parameter raises. -/
theorem unbound_opt2_violated : ¬∀ ranks parallel reserves phases, ∃ r, linkPhases ranks parallel reserves phases = .ok r := by
  intro h
  obtain ⟨r, hr⟩ := h 2 true [] [bare "a" ["time"], bare "b" ["initial_time"]]
  have : linkPhases 2 true [] [bare "a" ["time"], bare "b" ["initial_time"]] = .error .unboundOpt2 := by decide +kernel
  rw [this] at hr
  cases hr

/-- A mission of a single phase: nothing is configured or checked. -/
theorem single_not_configured (ranks : ℕ) (parallel : Bool) (reserves : List String) (p : Phase) :
    linkPhases ranks parallel reserves [p] = .ok ([], false) := by simp [linkPhases]

end Verif.LinkPhases
