import Verif.Model.DeckOptions
import Verif.Lemmas.Dict
import Mathlib.Tactic.NormNum
import Mathlib.Tactic.SplitIfs
import Mathlib.Tactic.FinCases

/-!
# Properties of the options of an engine deck (C130)
-/

namespace Verif.DeckOptions
open Verif.PropMission (Val Box)

/-! ### Gathering -/

/-- Only an empty list is refused. -/
theorem pick_ok_iff {ν : Type} (v : Val ν) : (∃ w, pick v = .ok w) ↔ ∀ b, v ≠ .seq b [] := by
  match v with
  | .scalar x => simp [pick]
  | .seq b [] => simp [pick]
  | .seq b (x :: xs) => simp [pick]

example : pick (.seq .list [] : Val ℕ) = .error .indexError := rfl

/-- A list of one value and a list of lists give their first item. -/
theorem pick_first {ν : Type} (b : Box) (x : Val ν) (xs : List (Val ν)) (h : x.isSeq = true ∨ xs = []) :
    pick (.seq b (x :: xs)) = .ok x := by
  rcases h with h | h <;> simp [pick, h]

/-- Several scalars stay together: such a value is not one of a single engine. -/
theorem pick_several {ν : Type} (b : Box) (x : Val ν) (y : Val ν) (xs : List (Val ν)) (h : x.isSeq = false) :
    pick (.seq b (x :: y :: xs)) = .ok (.seq b (x :: y :: xs)) := by
  simp [pick, h]

/-- The engine gets the variables of the engine which have meta data and a value, each picked, and nothing else. -/
theorem gather_get? {ν : Type} (md : String → Bool) (opts : Dict String (Val ν)) (l : List String) (r : Dict String (Val ν))
    (h : gather md opts l = .ok r) (k : String) (w : Val ν) :
    Dict.get? r k = some w ↔ k ∈ l ∧ md k = true ∧ ∃ v, opts.get? k = some v ∧ pick v = .ok w := by
  induction l generalizing r with
  | nil =>
    have e : r = [] := by simpa [gather] using h.symm
    simp [e]
  | cons a l ih =>
    unfold gather at h
    cases hm : md a with
    | false =>
      rw [hm] at h
      dsimp only at h
      rw [ih r h]
      constructor
      · rintro ⟨h1, h2⟩
        exact ⟨List.mem_cons_of_mem _ h1, h2⟩
      · rintro ⟨h1, h2, h3⟩
        rcases List.mem_cons.mp h1 with rfl | h1
        · simp [hm] at h2
        · exact ⟨h1, h2, h3⟩
    | true =>
      cases ho : opts.get? a with
      | none =>
        rw [hm, ho] at h
        dsimp only at h
        rw [ih r h]
        constructor
        · rintro ⟨h1, h2⟩
          exact ⟨List.mem_cons_of_mem _ h1, h2⟩
        · rintro ⟨h1, h2, v, h3, h4⟩
          rcases List.mem_cons.mp h1 with rfl | h1
          · simp [ho] at h3
          · exact ⟨h1, h2, v, h3, h4⟩
      | some v =>
        rw [hm, ho] at h
        dsimp only at h
        cases hp : pick v with
        | error e => rw [hp] at h; simp [bind, Except.bind] at h
        | ok x =>
          rw [hp] at h
          cases hg : gather md opts l with
          | error e => rw [hg] at h; simp [bind, Except.bind] at h
          | ok r' =>
            rw [hg] at h
            have e : r = (a, x) :: r' := by simpa [bind, Except.bind] using h.symm
            subst e
            have hc : Dict.get? ((a, x) :: r') k = if a = k then some x else Dict.get? r' k := rfl
            rw [hc]
            split_ifs with hk
            · subst hk
              simp [hm, ho, hp]
            · rw [ih r' hg]
              constructor
              · rintro ⟨h1, h2⟩
                exact ⟨List.mem_cons_of_mem _ h1, h2⟩
              · rintro ⟨h1, h2⟩
                rcases List.mem_cons.mp h1 with rfl | h1
                · exact absurd rfl hk
                · exact ⟨h1, h2⟩

/-- Gathering fails for an empty list of a variable of the engine only. -/
theorem gather_ok_iff {ν : Type} (md : String → Bool) (opts : Dict String (Val ν)) (l : List String) :
    (∃ r, gather md opts l = .ok r) ↔ ∀ k ∈ l, md k = true → ∀ b, opts.get? k ≠ some (.seq b []) := by
  induction l with
  | nil => simp [gather]
  | cons a l ih =>
    unfold gather
    cases hm : md a with
    | false => simp only [List.forall_mem_cons, hm]; simpa using ih
    | true =>
      cases ho : opts.get? a with
      | none => simp only [List.forall_mem_cons, ho]; simpa using ih
      | some v =>
        dsimp only
        have hv := pick_ok_iff v
        cases hp : pick v with
        | error e =>
          simp only [hp, reduceCtorEq, exists_false, false_iff, not_forall, not_not] at hv
          obtain ⟨b, hb⟩ := hv
          simp only [bind, Except.bind, reduceCtorEq, exists_false, false_iff]
          exact fun H => H a (by simp) hm b (by rw [ho, hb])
        | ok x =>
          have hv' : ∀ b, v ≠ .seq b [] := hv.mp ⟨x, hp⟩
          simp only [List.forall_mem_cons]
          cases hg : gather md opts l with
          | error e =>
            simp only [hg, reduceCtorEq, exists_false, false_iff] at ih
            simp only [bind, Except.bind, reduceCtorEq, exists_false, false_iff]
            exact fun H => ih H.2
          | ok r =>
            have := ih.mp ⟨r, hg⟩
            simp only [bind, Except.bind, Except.ok.injEq, exists_eq', true_iff]
            refine ⟨fun _ b e => ?_, this⟩
            rw [ho] at e
            exact hv' b (Option.some.inj e)

example : gather (fun k => k != "nested") [("a", .seq .list [.scalar 3]), ("settings", .scalar 1), ("nested", .scalar 2)] ["a", "nested", "b"]
    = .ok [("a", (.scalar 3 : Val ℕ))] := rfl

/-- Whatever is no variable of the engine, like the settings, gets lost. -/
theorem gather_settings_violated {ν : Type} (md : String → Bool) (opts : Dict String (Val ν)) (l : List String) (r : Dict String (Val ν))
    (h : gather md opts l = .ok r) (k : String) (hk : k ∉ l) : Dict.get? r k = none := by
  cases e : Dict.get? r k with
  | none => rfl
  | some w => exact absurd ((gather_get? md opts l r h k w).mp e).1 hk

/-- A given name is taken; otherwise the deck is named after its file, which has to be a single text. -/
theorem deckName_ok_iff (stem : String → String) (name : Option String) (o : Dict String (Val V)) (n : String) :
    deckName stem name o = .ok n ↔
      name = some n ∨ (name = none ∧ ∃ s, o.get? "aircraft:engine:data_file" = some (.scalar (.text s)) ∧ n = stem s) := by
  unfold deckName
  cases name with
  | some m => simp
  | none =>
    dsimp only
    cases o.get? "aircraft:engine:data_file" with
    | none => simp
    | some v =>
      match v with
      | .seq b l => simp
      | .scalar (.flag b) => simp
      | .scalar (.num b) => simp
      | .scalar .nothing => simp
      | .scalar (.text s) => simp [eq_comm]

/-! ### Defaults and checks -/

/-- The value an option has in the end. -/
theorem fill_get? (md : String → Option V) (l : List String) (o p : Dict String V) (h : fill md l o = .ok p) (k : String) :
    p.get? k = match o.get? k with
      | some v => some v
      | none => if k ∈ l then md k else none := by
  induction l generalizing o with
  | nil =>
    have e : o = p := by simpa [fill] using h
    subst e
    cases o.get? k <;> simp
  | cons a l ih =>
    unfold fill at h
    cases ho : o.get? a with
    | some v =>
      rw [ho] at h
      dsimp only at h
      rw [ih o h]
      cases hk : o.get? k with
      | some w => rfl
      | none =>
        have : k ≠ a := by rintro rfl; simp [ho] at hk
        simp [this]
    | none =>
      rw [ho] at h
      dsimp only at h
      cases hd : md a with
      | none => rw [hd] at h; simp at h
      | some d =>
        rw [hd] at h
        dsimp only at h
        rw [ih _ h]
        by_cases e : a = k
        · subst e
          simp [ho, hd]
        · rw [Dict.get?_set_ne _ _ e]
          have : k ≠ a := fun e' => e e'.symm
          simp [this]

/-- Filling fails if a missing option has no meta data. -/
theorem fill_ok_iff (md : String → Option V) (l : List String) (o : Dict String V) :
    (∃ p, fill md l o = .ok p) ↔ ∀ k ∈ l, o.get? k = none → (md k).isSome := by
  induction l generalizing o with
  | nil => simp [fill]
  | cons a l ih =>
    unfold fill
    cases ho : o.get? a with
    | some v => simp [ih, ho]
    | none =>
      cases hd : md a with
      | none => simp [ho, hd]
      | some d =>
        simp only [ih, List.forall_mem_cons, hd, Option.isSome_some, implies_true, true_and]
        constructor
        · intro H k hk hn
          by_cases e : a = k
          · subst e; simp [hd]
          · exact H k hk (by rw [Dict.get?_set_ne _ _ e]; exact hn)
        · intro H k hk hn
          by_cases e : a = k
          · subst e; simp [hd]
          · rw [Dict.get?_set_ne _ _ e] at hn; exact H k hk hn

/-- Filling what has been filled changes nothing. -/
theorem fill_full (md : String → Option V) (l : List String) (o : Dict String V) (h : ∀ k ∈ l, (o.get? k).isSome) :
    fill md l o = .ok o := by
  induction l with
  | nil => rfl
  | cons a l ih =>
    unfold fill
    obtain ⟨v, hv⟩ := Option.isSome_iff_exists.mp (h a (by simp))
    rw [hv]
    exact ih fun k hk => h k (by simp [hk])

/-- The value of an option: the given one, or the default of the meta data. -/
def eff (md : String → Option V) (o : Dict String V) (k : String) : Option V := (o.get? k).or (md k)

/-- The fractions of the idle. -/
theorem idleCheck_ok_iff (o : Dict String V) :
    idleCheck o = .ok () ↔ ∃ a b, o.get? "aircraft:engine:flight_idle_min_fraction" = some (.num a) ∧
      o.get? "aircraft:engine:flight_idle_max_fraction" = some (.num b) ∧ a ≤ b := by
  unfold idleCheck
  cases o.get? "aircraft:engine:flight_idle_min_fraction" with
  | none => simp
  | some x =>
    cases o.get? "aircraft:engine:flight_idle_max_fraction" with
    | none => simp
    | some y =>
      cases x with
      | num a =>
        cases y with
        | num b => by_cases h : a > b <;> simp [h, not_le.mpr, not_lt.mp]
        | _ => simp
      | _ => simp

/-- The order of the sort. -/
theorem sortCheck_ok_iff (o : Dict String V) :
    sortCheck o = .ok () ↔ o.get? "aircraft:engine:interpolation_sort" = some (.text "mach") ∨
      o.get? "aircraft:engine:interpolation_sort" = some (.text "altitude") := by
  unfold sortCheck
  cases o.get? "aircraft:engine:interpolation_sort" with
  | none => simp
  | some v => by_cases h : v = .text "mach" ∨ v = .text "altitude" <;> simp [h]

/-- The default of the idle does not change whether the idle is generated. -/
theorem generates_fill (md : String → Option V) (q p : Dict String V) (h : fill md dependent q = .ok p) : generates p = generates q := by
  unfold generates
  rw [fill_get? md dependent q p h]
  have : "aircraft:engine:generate_flight_idle" ∉ dependent := by decide
  cases q.get? "aircraft:engine:generate_flight_idle" <;> simp [this]

/-- The checks in parts. -/
theorem preprocess_ok (md : String → Option V) (file : Bool) (o p : Dict String V) :
    preprocess md file o = .ok p ↔ ∃ q, fill md (wanted file) o = .ok q ∧
      ((generates q = true ∧ fill md dependent q = .ok p ∧ idleCheck p = .ok ()) ∨ (generates q = false ∧ p = q)) ∧ sortCheck p = .ok () := by
  unfold preprocess
  cases hq : fill md (wanted file) o with
  | error e => simp [bind, Except.bind]
  | ok q =>
    simp only [bind, Except.bind, Except.ok.injEq, exists_eq_left']
    cases hg : generates q with
    | false =>
      simp only [Bool.false_eq_true, if_false, false_and, true_and, false_or]
      cases hs : sortCheck q with
      | error e =>
        simp only [reduceCtorEq, false_iff, not_and]
        rintro rfl
        simp [hs]
      | ok u =>
        simp only [Except.ok.injEq]
        constructor
        · rintro rfl; exact ⟨rfl, hs⟩
        · rintro ⟨rfl, -⟩; rfl
    | true =>
      simp only [if_true, true_and, Bool.true_eq_false, false_and, or_false]
      cases hf : fill md dependent q with
      | error e => simp
      | ok r =>
        simp only [generates_fill md q r hf, hg, if_true, Except.ok.injEq]
        cases hi : idleCheck r with
        | error e =>
          simp only [reduceCtorEq, false_iff, not_and]
          rintro ⟨rfl, h⟩
          simp [hi] at h
        | ok u =>
          cases hs : sortCheck r with
          | error e =>
            simp only [reduceCtorEq, false_iff, not_and]
            rintro ⟨rfl, h⟩
            simp [hs]
          | ok u' =>
            simp only [Except.ok.injEq]
            constructor
            · rintro rfl; exact ⟨⟨rfl, hi⟩, hs⟩
            · rintro ⟨⟨rfl, -⟩, -⟩; rfl

/-- What the checked options hold: what was given, defaults of the required options, and those of the idle if it is generated. -/
theorem preprocess_get? (md : String → Option V) (file : Bool) (o p : Dict String V) (h : preprocess md file o = .ok p) (k : String) :
    p.get? k = match o.get? k with
      | some v => some v
      | none => if k ∈ wanted file then md k else if generates p = true ∧ k ∈ dependent then md k else none := by
  obtain ⟨q, hq, hp, -⟩ := (preprocess_ok md file o p).mp h
  have h1 := fill_get? md _ o q hq k
  have hw : ∀ k ∈ wanted file, (q.get? k).isSome := by
    intro k hk
    rw [fill_get? md _ o q hq k]
    have := (fill_ok_iff md (wanted file) o).mp ⟨q, hq⟩ k hk
    cases ho : o.get? k with
    | some v => simp
    | none => simpa [hk] using this ho
  rcases hp with ⟨hg, hf, -⟩ | ⟨hg, rfl⟩
  · have h2 := fill_get? md _ q p hf k
    rw [generates_fill md q p hf, hg]
    rw [h2, h1]
    cases ho : o.get? k with
    | some v => rfl
    | none =>
      by_cases hk : k ∈ wanted file
      · have := hw k hk
        rw [h1, ho] at this
        simp only [hk, if_true] at this ⊢
        cases hd : md k with
        | none => simp [hd] at this
        | some d => rfl
      · simp [hk]
  · rw [h1]
    simp [hg]

/-- Every required option has a value afterwards. -/
theorem preprocess_required (md : String → Option V) (file : Bool) (o p : Dict String V) (h : preprocess md file o = .ok p) (k : String)
    (hk : k ∈ wanted file) : (p.get? k).isSome := by
  obtain ⟨q, hq, -, -⟩ := (preprocess_ok md file o p).mp h
  rw [preprocess_get? md file o p h k]
  have := (fill_ok_iff md (wanted file) o).mp ⟨q, hq⟩ k hk
  cases ho : o.get? k with
  | some v => simp
  | none => simpa [hk] using this ho

/-- Checked options pass unchanged. -/
theorem preprocess_idem (md : String → Option V) (file : Bool) (o p : Dict String V) (h : preprocess md file o = .ok p) :
    preprocess md file p = .ok p := by
  have hw := preprocess_required md file o p h
  obtain ⟨q, hq, hp, hs⟩ := (preprocess_ok md file o p).mp h
  rw [preprocess_ok]
  refine ⟨p, fill_full md _ p hw, ?_, hs⟩
  rcases hp with ⟨hg, hf, hi⟩ | ⟨hg, rfl⟩
  · refine .inl ⟨by rw [generates_fill md q p hf, hg], fill_full md _ p fun k hk => ?_, hi⟩
    rw [fill_get? md _ q p hf k]
    have := (fill_ok_iff md dependent q).mp ⟨p, hf⟩ k hk
    cases ho : q.get? k with
    | some v => simp
    | none => simpa [hk] using this ho
  · exact .inr ⟨hg, rfl⟩

/-- After the required options are filled, their values are the given ones or the defaults. -/
theorem fill_eff (md : String → Option V) (l : List String) (o p : Dict String V) (h : fill md l o = .ok p) (k : String)
    (hk : k ∈ l ∨ (o.get? k).isSome) : p.get? k = eff md o k := by
  rw [fill_get? md l o p h k, eff]
  cases ho : o.get? k with
  | some v => simp
  | none =>
    have : k ∈ l := by simpa [ho] using hk
    simp [this]

/-- When options are accepted, told by the given values and the defaults alone: every required option has one, the sort is by Mach or by
altitude, and, if flight idle is generated, its options have values with the smallest fraction at most the largest. -/
theorem preprocess_ok_iff (md : String → Option V) (file : Bool) (o : Dict String V) :
    (∃ p, preprocess md file o = .ok p) ↔
      (∀ k ∈ wanted file, (eff md o k).isSome) ∧
      (eff md o "aircraft:engine:interpolation_sort" = some (.text "mach") ∨
        eff md o "aircraft:engine:interpolation_sort" = some (.text "altitude")) ∧
      ((∃ v, eff md o "aircraft:engine:generate_flight_idle" = some v ∧ truthy v = true) →
        (eff md o "aircraft:engine:flight_idle_thrust_fraction").isSome ∧
        ∃ a b, eff md o "aircraft:engine:flight_idle_min_fraction" = some (.num a) ∧
          eff md o "aircraft:engine:flight_idle_max_fraction" = some (.num b) ∧ a ≤ b) := by
  have hfill : ∀ (l : List String) (o : Dict String V), (∃ p, fill md l o = .ok p) ↔ ∀ k ∈ l, (eff md o k).isSome := by
    intro l o
    rw [fill_ok_iff]
    refine forall₂_congr fun k _ => ?_
    unfold eff
    cases o.get? k <;> simp
  have mg : "aircraft:engine:generate_flight_idle" ∈ wanted file := by cases file <;> decide
  have ms : "aircraft:engine:interpolation_sort" ∈ wanted file := by cases file <;> decide
  have ne : ∀ k ∈ dependent, k ∉ wanted file := by cases file <;> decide
  have gen : ∀ q, fill md (wanted file) o = .ok q →
      (generates q = true ↔ ∃ v, eff md o "aircraft:engine:generate_flight_idle" = some v ∧ truthy v = true) := by
    intro q hq
    unfold generates
    rw [fill_eff md _ o q hq _ (.inl mg)]
    cases eff md o "aircraft:engine:generate_flight_idle" <;> simp
  have dep : ∀ q, fill md (wanted file) o = .ok q → ∀ k ∈ dependent, eff md q k = eff md o k := by
    intro q hq k hk
    unfold eff
    rw [fill_get? md _ o q hq k]
    cases o.get? k <;> simp [ne k hk]
  have sq : ∀ q, fill md (wanted file) o = .ok q →
      q.get? "aircraft:engine:interpolation_sort" = eff md o "aircraft:engine:interpolation_sort" :=
    fun q hq => fill_eff md _ o q hq _ (.inl ms)
  constructor
  · rintro ⟨p, hp⟩
    obtain ⟨q, hq, hb, hs⟩ := (preprocess_ok md file o p).mp hp
    refine ⟨(hfill _ o).mp ⟨q, hq⟩, ?_, ?_⟩
    · have : p.get? "aircraft:engine:interpolation_sort" = q.get? "aircraft:engine:interpolation_sort" := by
        rcases hb with ⟨-, hf, -⟩ | ⟨-, rfl⟩
        · rw [fill_get? md _ q p hf]
          have : "aircraft:engine:interpolation_sort" ∉ dependent := by decide
          cases q.get? "aircraft:engine:interpolation_sort" <;> simp [this]
        · rfl
      rw [sortCheck_ok_iff, this, sq q hq] at hs
      exact hs
    · intro hg
      rcases hb with ⟨-, hf, hi⟩ | ⟨hn, -⟩
      · have hd := (hfill _ q).mp ⟨p, hf⟩
        obtain ⟨a, b, ha, hb, hab⟩ := (idleCheck_ok_iff p).mp hi
        have e : ∀ k ∈ dependent, p.get? k = eff md o k := fun k hk => by
          rw [fill_eff md _ q p hf k (.inl hk), dep q hq k hk]
        refine ⟨?_, a, b, ?_, ?_, hab⟩
        · rw [← dep q hq _ (by decide)]; exact hd _ (by decide)
        · rw [← e _ (by decide)]; exact ha
        · rw [← e _ (by decide)]; exact hb
      · rw [(gen q hq).mpr hg] at hn
        cases hn
  · rintro ⟨h1, h2, h3⟩
    obtain ⟨q, hq⟩ := (hfill _ o).mpr h1
    cases hg : generates q with
    | false =>
      exact ⟨q, (preprocess_ok md file o q).mpr ⟨q, hq, .inr ⟨hg, rfl⟩, (sortCheck_ok_iff q).mpr (by rw [sq q hq]; exact h2)⟩⟩
    | true =>
      obtain ⟨h4, a, b, ha, hb, hab⟩ := h3 ((gen q hq).mp hg)
      have hd : ∀ k ∈ dependent, (eff md q k).isSome := by
        intro k hk
        rw [dep q hq k hk]
        fin_cases hk
        · exact h4
        · simp [ha]
        · simp [hb]
      obtain ⟨p, hf⟩ := (hfill _ q).mpr hd
      have e : ∀ k ∈ dependent, p.get? k = eff md o k := fun k hk => by
        rw [fill_eff md _ q p hf k (.inl hk), dep q hq k hk]
      refine ⟨p, (preprocess_ok md file o p).mpr ⟨q, hq, .inl ⟨hg, hf, ?_⟩, ?_⟩⟩
      · exact (idleCheck_ok_iff p).mpr ⟨a, b, by rw [e _ (by decide), ha], by rw [e _ (by decide), hb], hab⟩
      · rw [sortCheck_ok_iff, fill_eff md _ q p hf _ (.inr (by rw [sq q hq]; rcases h2 with h | h <;> simp [h])), eff, sq q hq]
        rcases h2 with h | h <;> simp [h]

/-- No options at all are accepted. -/
theorem preprocess_core_empty : ∃ p, preprocess core true [] = .ok p := by
  rw [preprocess_ok_iff]
  refine ⟨by decide, .inl (by decide), ?_⟩
  rintro ⟨v, h, hv⟩
  have : v = .flag false := by simpa [eff, core] using h.symm
  subst this
  cases hv

/-- With the defaults, a smallest fraction above one is refused if idle is generated. -/
theorem preprocess_core_idle (x : ℚ) :
    (∃ p, preprocess core true [("aircraft:engine:generate_flight_idle", .flag true),
      ("aircraft:engine:flight_idle_min_fraction", .num x)] = .ok p) ↔ x ≤ 1 := by
  rw [preprocess_ok_iff]
  constructor
  · rintro ⟨-, -, h⟩
    obtain ⟨-, a, b, ha, hb, hab⟩ := h ⟨.flag true, rfl, rfl⟩
    have ea : V.num x = .num a := Option.some.inj ha
    have eb : V.num 1 = .num b := Option.some.inj hb
    rw [V.num.inj ea, V.num.inj eb]
    exact hab
  · intro h
    refine ⟨fun k hk => ?_, .inl rfl, fun _ => ⟨rfl, x, 1, rfl, rfl, h⟩⟩
    fin_cases hk <;> rfl

/-- Fractions in the wrong order go unnoticed unless idle is generated. -/
theorem idle_unchecked (a b : ℚ) :
    ∃ p, preprocess core true [("aircraft:engine:flight_idle_min_fraction", .num a),
      ("aircraft:engine:flight_idle_max_fraction", .num b)] = .ok p := by
  rw [preprocess_ok_iff]
  refine ⟨fun k hk => ?_, .inl rfl, fun h => ?_⟩
  · fin_cases hk <;> rfl
  · obtain ⟨v, hv, ht⟩ := h
    have : V.flag false = v := Option.some.inj hv
    subst this
    cases ht

/-! ### Warnings -/

/-- Missing options are told at a verbosity above brief, each of them. -/
theorem warned_iff (verb : ℕ) (l : List String) (o : Dict String V) (k : String) :
    k ∈ warned verb l o ↔ 1 < verb ∧ k ∈ l ∧ o.get? k = none := by
  unfold warned
  split_ifs with h
  · simp [h, Dict.has, Option.isNone_iff_eq_none]
  · simp [h]

/-! ### Construction -/

/-- Without options the deck cannot be made, although they are optional. -/
theorem throttles_none_violated (md : String → Option V) (o : Dict String V) : throttles md none o = .error .typeError := rfl

/-- The throttle options get a value. -/
theorem throttles_get? (a o : Dict String V) (k : String) :
    ∃ t, throttles core (some a) o = .ok t ∧
      t.get? k = if (k = "aircraft:engine:global_throttle" ∨ k = "aircraft:engine:global_hybrid_throttle") ∧ a.get? k = none
        then some (.flag false) else o.get? k := by
  unfold throttles
  simp only [List.foldlM_cons, List.foldlM_nil, bind, Except.bind, pure, Except.pure, Dict.has, core]
  have n1 : "aircraft:engine:global_throttle" ≠ "aircraft:engine:global_hybrid_throttle" := by decide
  cases h1 : a.get? "aircraft:engine:global_throttle" <;> cases h2 : a.get? "aircraft:engine:global_hybrid_throttle" <;>
    simp only [Option.isSome_some, Option.isSome_none, if_true, Bool.false_eq_true, if_false, Except.ok.injEq, exists_eq_left']
  all_goals
    by_cases e1 : k = "aircraft:engine:global_throttle"
    · subst e1
      simp [h1, Dict.get?_set, n1, n1.symm]
    · by_cases e2 : k = "aircraft:engine:global_hybrid_throttle"
      · subst e2
        simp [h2, Dict.get?_set, n1, n1.symm]
      · simp [e1, e2, Dict.get?_set, Ne.symm e1, Ne.symm e2]

/-- The steps keep one order, and which are taken is told by the options. -/
theorem setup_steps (earth : V → Bool) (u : Bool) (o : Dict String V) (st : List Step) (h : setup earth u o = .ok st) :
    st.Sublist [.read, .check, .convert, .warn, .pack, .reference, .normalize, .idle] ∧
    (∀ s, s ∈ st ↔ match s with
      | .read | .check | .pack | .normalize => True
      | .convert => ∃ g m, o.get? "aircraft:engine:geopotential_alt" = some g ∧ truthy g = true ∧
          o.get? "settings:atmosphere_model" = some m ∧ earth m = true
      | .warn => ∃ g m, o.get? "aircraft:engine:geopotential_alt" = some g ∧ truthy g = true ∧
          o.get? "settings:atmosphere_model" = some m ∧ earth m = false
      | .reference => u = true
      | .idle => generates o = true) := by
  unfold setup at h
  cases hg : o.get? "aircraft:engine:geopotential_alt" with
  | none => simp [hg, bind, Except.bind] at h
  | some g =>
    cases ht : truthy g with
    | false =>
      simp only [hg, ht, bind, Except.bind, Bool.false_eq_true, if_false, Except.ok.injEq] at h
      subst h
      constructor
      · cases u <;> cases generates o <;> decide
      · intro s
        cases s <;> cases u <;> cases hi : generates o <;> simp [ht]
    | true =>
      cases hm : o.get? "settings:atmosphere_model" with
      | none => simp [hg, ht, hm, bind, Except.bind] at h
      | some m =>
        simp only [hg, ht, hm, bind, Except.bind, if_true, Except.ok.injEq] at h
        subst h
        constructor
        · cases u <;> cases generates o <;> cases earth m <;> decide
        · intro s
          cases s <;> cases u <;> cases hi : generates o <;> cases he : earth m <;> simp [ht, he]

/-- Altitudes can be converted only if the deck knows the atmosphere. -/
theorem setup_ok_iff (earth : V → Bool) (u : Bool) (o : Dict String V) :
    (∃ st, setup earth u o = .ok st) ↔ ∃ g, o.get? "aircraft:engine:geopotential_alt" = some g ∧
      (truthy g = true → (o.get? "settings:atmosphere_model").isSome) := by
  unfold setup
  cases hg : o.get? "aircraft:engine:geopotential_alt" with
  | none => simp [bind, Except.bind]
  | some g =>
    cases ht : truthy g with
    | false => simp [ht, bind, Except.bind]
    | true =>
      cases hm : o.get? "settings:atmosphere_model" with
      | none => simp [ht, bind, Except.bind]
      | some m => simp [ht, bind, Except.bind]

example : setup (fun _ => true) true [("aircraft:engine:geopotential_alt", .flag true), ("settings:atmosphere_model", .text "standard")] =
    .ok [.read, .check, .convert, .pack, .reference, .normalize] := by decide +kernel

/-- A scalar of the deck was gathered. -/
theorem scalars_get? (d : Dict String (Val V)) (k : String) (h : Dict.get? d k = none) : (scalars d).get? k = none := by
  induction d with
  | nil => rfl
  | cons x d ih =>
    obtain ⟨a, v⟩ := x
    have hc : Dict.get? ((a, v) :: d) k = if a = k then some v else Dict.get? d k := rfl
    rw [hc] at h
    split_ifs at h with e
    cases v with
    | seq b l => exact ih h
    | scalar x =>
      have : (scalars ((a, .scalar x) :: d)).get? k = if a = k then some x else (scalars d).get? k := rfl
      rw [this, if_neg e]
      exact ih h

/-- A deck built from the options of an aircraft never converts its altitudes: the atmosphere is no variable of the engine, so asking for the
conversion is an error, whatever the aircraft says about its atmosphere. -/
theorem build_convert_violated (stem : String → String) (earth : V → Bool) (u : Bool) (hasMd : String → Bool) (vars : List String)
    (hv : "settings:atmosphere_model" ∉ vars) (name : Option String) (opts : Dict String (Val V)) (n : String) (st : List Step)
    (h : build stem earth u hasMd vars name opts = .ok (n, st)) : Step.convert ∉ st ∧ Step.warn ∉ st := by
  unfold build at h
  cases hg : gather hasMd opts vars with
  | error e => simp [hg, bind, Except.bind] at h
  | ok g =>
    cases hn : deckName stem name g with
    | error e => simp [hg, hn, bind, Except.bind] at h
    | ok n' =>
      cases hp : preprocess core true (scalars g) with
      | error e => simp [hg, hn, hp, bind, Except.bind] at h
      | ok p =>
        obtain ⟨t, ht, hk⟩ := throttles_get? (scalars g) p "settings:atmosphere_model"
        cases hs : setup earth u t with
        | error e => simp [hg, hn, hp, ht, hs, bind, Except.bind] at h
        | ok st' =>
          have e : st' = st := by
            simp only [hg, hn, hp, ht, hs, bind, Except.bind, Except.ok.injEq, Prod.mk.injEq] at h
            exact h.2
          subst e
          have hnone : t.get? "settings:atmosphere_model" = none := by
            rw [hk, if_neg (fun h => absurd h.1 (by decide)), preprocess_get? core true _ p hp,
              scalars_get? g _ (gather_settings_violated hasMd opts vars g hg _ hv)]
            simp [wanted, required, dependent]
          have hst := (setup_steps earth u t st' hs).2
          constructor
          · intro hc
            obtain ⟨_, _, _, _, hm, _⟩ := (hst .convert).mp hc
            rw [hnone] at hm
            cases hm
          · intro hc
            obtain ⟨_, _, _, _, hm, _⟩ := (hst .warn).mp hc
            rw [hnone] at hm
            cases hm

/-- Asking for the conversion, with an atmosphere given. -/
theorem build_geopotential_violated :
    build id (fun _ => true) true (fun _ => true) ["aircraft:engine:data_file", "aircraft:engine:geopotential_alt"] none
      [("aircraft:engine:data_file", .scalar (.text "f")), ("aircraft:engine:geopotential_alt", .scalar (.flag true)),
        ("settings:atmosphere_model", .scalar (.text "standard"))] = .error .keyError := by decide +kernel

example : build id (fun _ => true) true (fun _ => true) ["aircraft:engine:data_file", "aircraft:engine:geopotential_alt"] none
      [("aircraft:engine:data_file", .seq .list [.scalar (.text "f")]), ("aircraft:engine:geopotential_alt", .scalar (.flag false))] =
    .ok ("f", [.read, .check, .pack, .reference, .normalize]) := by decide +kernel

/-- An update without data fails, whatever the options. -/
theorem update_violated (earth : V → Bool) (u : Bool) (o : Dict String V) : update earth u false o = .error .typeError := rfl

/-- An update takes options which making a deck refuses. -/
theorem update_unchecked_violated :
    preprocess core false [("aircraft:engine:geopotential_alt", .flag false), ("aircraft:engine:interpolation_sort", .text "size")] =
      .error .valueError ∧
    update (fun _ => true) false true [("aircraft:engine:geopotential_alt", .flag false),
      ("aircraft:engine:interpolation_sort", .text "size")] = .ok [.read, .check, .pack, .normalize] := by
  constructor <;> decide +kernel

end Verif.DeckOptions
