import Verif.Model.Builders
import Mathlib.Data.Finset.Card
import Mathlib.Data.Finset.Dedup
import Mathlib.Tactic.Ring
import Mathlib.Tactic.Linarith

/-!
# Theorems about the builders of the core subsystems
-/

namespace Verif.Builders

/-! ## C113 -/

/-- The methods each code origin documents, with the class each builds. -/
def methodTable : Origin → List (String × Cls)
  | .flops => [("computed", .computed), ("low_speed", .takeoff), ("tabular", .tabular)]
  | .gasp => [("cruise", .cruise), ("tabular_cruise", .tabCruise), ("low_speed", .lowSpeed), ("tabular_low_speed", .tabLowSpeed)]

/-- The data each class cannot do without, by the names the builder asks for. -/
def required : Cls → List String
  | .tabular => ["CD0_data", "CDI_data"]
  | .tabCruise => ["aero_data"]
  | .tabLowSpeed => ["free_aero_data", "free_flaps_data", "free_ground_data"]
  | _ => []

/-- The options that reach the constructor. -/
def passed : Origin → Opts → List String
  | .flops, o => o.keys
  | .gasp, o => o.keys.filter (fun k => decide (k ≠ "solve_alpha"))

theorem has_iff (o : Opts) (k : String) : o.has k = true ↔ k ∈ o.keys := by
  unfold Opts.has Opts.get Opts.keys
  induction o.rest with
  | nil => simp
  | cons a l ih =>
    obtain ⟨x, v⟩ := a
    by_cases h : k = x
    · subst h; simp
    · have : (k == x) = false := by simpa using h
      simp [List.lookup, this, h, ih]

theorem construct_ok_iff (c : Cls) (ks : List String) (g : Grp) :
    construct c ks = .ok g ↔ (∀ k ∈ ks, k ∈ c.declared) ∧ g = ⟨c, ks, none⟩ := by
  unfold construct
  split
  · rename_i h
    simp only [List.all_eq_true, List.contains_iff_mem] at h
    simp only [Except.ok.injEq, eq_comm]
    exact ⟨fun e => ⟨h, e⟩, fun e => e.2⟩
  · rename_i h
    simp only [List.all_eq_true, List.contains_iff_mem] at h
    simp [h]

theorem mem_drop (k x : String) (ks : List String) : x ∈ drop k ks ↔ x ∈ ks ∧ x ≠ k := by
  simp [drop]

theorem ex_method (m0 : String) (P : String → Cls → Prop) :
    (∃ m c, some m0 = some m ∧ P m c) ↔ ∃ c, P m0 c := by
  constructor
  · rintro ⟨m, c, h, p⟩
    obtain rfl : m0 = m := by simpa using h
    exact ⟨c, p⟩
  · rintro ⟨c, p⟩; exact ⟨m0, c, rfl, p⟩

/-- What the FLOPS branch builds, and when. -/
theorem buildFlops_ok_iff (o : Opts) (g : Grp) :
    buildFlops o = .ok g ↔ (o.method = none ∧ g = ⟨.computed, [], none⟩) ∨
      ∃ m c, o.method = some m ∧ (m, c) ∈ methodTable .flops ∧ (∀ k ∈ required c, k ∈ o.keys) ∧
        (∀ k ∈ o.keys, k ∈ c.declared) ∧
        g = ⟨c, if c = .tabular then required c ++ o.keys.filter (fun k => decide (k ∉ required c)) else o.keys, none⟩ := by
  rcases o with ⟨m, r⟩
  rcases m with _ | m
  · simp [buildFlops, construct_ok_iff]
  · have hk : ∀ (x : Prop), (some m = none ∧ x) ↔ False := by simp
    simp only [buildFlops, hk, false_or, ex_method, methodTable, List.mem_cons, Prod.mk.injEq,
      List.not_mem_nil, or_false]
    by_cases h1 : m = "computed"
    · subst h1; simp [construct_ok_iff, required]
    by_cases h2 : m = "low_speed"
    · subst h2; simp [construct_ok_iff, required]
    by_cases h3 : m = "tabular"
    · subst h3
      simp only [h1, h2, if_true, if_false, false_and, true_and, false_or, exists_eq_left, required, List.mem_cons,
        List.not_mem_nil, or_false, forall_eq_or_imp, forall_eq]
      by_cases a : Opts.has ⟨some "tabular", r⟩ "CD0_data" = true
      · by_cases b : Opts.has ⟨some "tabular", r⟩ "CDI_data" = true
        · have a' := (has_iff _ _).1 a
          have b' := (has_iff _ _).1 b
          simp only [a, b, if_true, a', b', true_and, construct_ok_iff, and_self]
          have e : drop "CDI_data" (drop "CD0_data" (Opts.keys ⟨some "tabular", r⟩))
              = (Opts.keys ⟨some "tabular", r⟩).filter (fun k => decide (¬ (k = "CD0_data" ∨ k = "CDI_data"))) := by
            simp only [drop, List.filter_filter]
            congr 1; funext k
            by_cases x : k = "CD0_data" <;> by_cases y : k = "CDI_data" <;> simp [x, y]
          rw [e]
          constructor
          · rintro ⟨h, rfl⟩
            refine ⟨fun k hk => ?_, rfl⟩
            by_cases x : k = "CD0_data" ∨ k = "CDI_data"
            · rcases x with rfl | rfl <;> simp [Cls.declared]
            · exact h k (by simp only [List.mem_append, List.mem_filter]; exact Or.inr ⟨hk, by simpa using x⟩)
          · rintro ⟨h, rfl⟩
            refine ⟨fun k hk => ?_, rfl⟩
            simp only [List.mem_append, List.mem_filter] at hk
            rcases hk with hk | hk
            · simp only [List.mem_cons, List.not_mem_nil, or_false] at hk
              rcases hk with rfl | rfl <;> simp [Cls.declared]
            · exact h k hk.1
        · have b' : "CDI_data" ∉ Opts.keys ⟨some "tabular", r⟩ := fun h => b ((has_iff _ _).2 h)
          simp [a, b, b']
      · have a' : "CD0_data" ∉ Opts.keys ⟨some "tabular", r⟩ := fun h => a ((has_iff _ _).2 h)
        simp [a, a']
    · simp [h1, h2, h3]

/-- Whether the GASP branch builds. -/
theorem buildGasp_ok_iff (o : Opts) :
    (∃ g, buildGasp o = .ok g) ↔ o.method = none ∨
      ∃ m c, o.method = some m ∧ (m, c) ∈ methodTable .gasp ∧ (∀ k ∈ required c, k ∈ o.keys) ∧
        ∀ k ∈ passed .gasp o, k ∈ c.declared := by
  have key : (∃ g, buildGasp o = .ok g) ↔ ∃ g, buildGaspGroup o.method (drop "solve_alpha" o.keys) = .ok g := by
    unfold buildGasp
    cases buildGaspGroup o.method (drop "solve_alpha" o.keys) with
    | error e => simp
    | ok g => simp only; split <;> simp
  rw [key]
  rcases o with ⟨m, r⟩
  rcases m with _ | m
  · simp [buildGaspGroup, construct_ok_iff]
  · simp only [buildGaspGroup, ex_method, methodTable, List.mem_cons, Prod.mk.injEq,
      List.not_mem_nil, or_false, reduceCtorEq, false_or]
    have hp : passed .gasp ⟨some m, r⟩ = drop "solve_alpha" (Opts.keys ⟨some m, r⟩) := rfl
    rw [hp]
    have hmem : ∀ x, x ≠ "solve_alpha" →
        (x ∈ drop "solve_alpha" (Opts.keys ⟨some m, r⟩) ↔ x ∈ Opts.keys ⟨some m, r⟩) := by
      intro x hx; simp [mem_drop, hx]
    generalize drop "solve_alpha" (Opts.keys ⟨some m, r⟩) = ks at *
    generalize Opts.keys ⟨some m, r⟩ = K at *
    by_cases h1 : m = "cruise"
    · subst h1; simp [construct_ok_iff, required]
    by_cases h2 : m = "tabular_cruise"
    · subst h2
      simp only [h1, if_true, if_false, false_and, true_and, false_or, required, List.mem_cons, List.not_mem_nil, or_false,
        List.contains_iff_mem]
      have e : ("tabular_cruise" = "low_speed") = False := by decide
      have e2 : ("tabular_cruise" = "tabular_low_speed") = False := by decide
      simp only [e, e2, false_and, or_false, exists_eq_left, required, List.mem_cons, List.not_mem_nil, forall_eq]
      by_cases a : "aero_data" ∈ ks
      · have a' := (hmem "aero_data" (by decide)).1 a
        simp only [a, a', if_true, true_and, construct_ok_iff, exists_and_left, exists_eq, and_true]
        constructor
        · intro h k hk
          by_cases x : k = "aero_data"
          · subst x; simp [Cls.declared]
          · exact h k (by simp [mem_drop, hk, x])
        · intro h k hk
          simp only [List.mem_cons, mem_drop] at hk
          rcases hk with rfl | hk
          · simp [Cls.declared]
          · exact h k hk.1
      · have a' : "aero_data" ∉ K := fun h => a ((hmem "aero_data" (by decide)).2 h)
        simp [a, a']
    by_cases h3 : m = "low_speed"
    · subst h3; simp [construct_ok_iff, required]
    by_cases h4 : m = "tabular_low_speed"
    · subst h4
      simp only [h1, h2, h3, if_true, if_false, false_and, true_and, false_or, exists_eq_left, required, List.mem_cons,
        List.not_mem_nil, or_false, forall_eq_or_imp, forall_eq, dataTables, lsTables, List.map_cons, List.map_nil,
        List.all_cons, List.all_nil, Bool.and_true, id, Bool.and_eq_true, List.contains_iff_mem]
      simp only [hmem "free_aero_data" (by decide), hmem "free_flaps_data" (by decide), hmem "free_ground_data" (by decide)]
      by_cases a : "free_aero_data" ∈ K ∧ "free_flaps_data" ∈ K ∧ "free_ground_data" ∈ K
      · simp [a, construct_ok_iff]
      · simp only [a, if_false, reduceCtorEq, exists_false, false_iff]
        exact fun h => h.1
    · simp [h1, h2, h3, h4]

/-- The mission group is built or declined exactly for a documented method with its data and only declared options, for no method
at all, and for `'external'`. -/
theorem build_ok_iff (c : Origin) (o : Opts) :
    (∃ r, buildMission c o = .ok r) ↔ o.method = some "external" ∨ o.method = none ∨
      ∃ m k, o.method = some m ∧ (m, k) ∈ methodTable c ∧ (∀ x ∈ required k, x ∈ o.keys) ∧ ∀ x ∈ passed c o, x ∈ k.declared := by
  unfold buildMission
  by_cases h : o.method = some "external"
  · simp [h]
  · simp only [h, if_false, false_or]
    cases c
    · have : (∃ r, (buildFlops o).map some = .ok r) ↔ ∃ g, buildFlops o = .ok g := by
        cases buildFlops o <;> simp [Except.map]
      simp only [this, buildFlops_ok_iff]
      constructor
      · rintro ⟨g, h | ⟨m, k, h1, h2, h3, h4, -⟩⟩
        · exact Or.inl h.1
        · exact Or.inr ⟨m, k, h1, h2, h3, h4⟩
      · rintro (h | ⟨m, k, h1, h2, h3, h4⟩)
        · exact ⟨_, Or.inl ⟨h, rfl⟩⟩
        · exact ⟨_, Or.inr ⟨m, k, h1, h2, h3, h4, rfl⟩⟩
    · have : (∃ r, (buildGasp o).map some = .ok r) ↔ ∃ g, buildGasp o = .ok g := by
        cases buildGasp o <;> simp [Except.map]
      simp only [this, buildGasp_ok_iff]

example : ∃ r, buildMission .gasp ⟨some "tabular_cruise", [("aero_data", .text "t.txt"), ("solve_alpha", .flag true)]⟩ = .ok r :=
  ⟨some ⟨.tabCruise, ["aero_data"], some "tabular_cruise_aero"⟩, by decide +kernel⟩

/-- A group is declined only for `'external'`. -/
theorem build_none_iff (c : Origin) (o : Opts) : buildMission c o = .ok none ↔ o.method = some "external" := by
  unfold buildMission
  by_cases h : o.method = some "external"
  · simp [h]
  · simp only [h, if_false, iff_false]
    cases c
    · cases buildFlops o <;> simp [Except.map]
    · cases buildGasp o <;> simp [Except.map]

/-- The low speed tables can never be used: the names the builder asks for are not the ones the group declares. -/
theorem tabular_low_speed_violated (o : Opts) (h : o.method = some "tabular_low_speed") :
    ¬ ∃ r, buildMission .gasp o = .ok r := by
  rw [build_ok_iff]
  rintro (h' | h' | ⟨m, k, h1, h2, h3, h4⟩)
  · rw [h] at h'; exact absurd h' (by decide)
  · rw [h] at h'; exact absurd h' (by simp)
  · rw [h] at h1
    obtain rfl : "tabular_low_speed" = m := by simpa using h1
    have hk : k = .tabLowSpeed := by
      simp only [methodTable, List.mem_cons, Prod.mk.injEq, List.not_mem_nil, or_false] at h2
      rcases h2 with h2 | h2 | h2 | h2
      · exact absurd h2.1 (by decide)
      · exact absurd h2.1 (by decide)
      · exact absurd h2.1 (by decide)
      · exact h2.2
    subst hk
    have := h4 "free_flaps_data" (by
      have := h3 "free_flaps_data" (by simp [required])
      simp only [passed, List.mem_filter]; exact ⟨this, by decide⟩)
    simp [Cls.declared] at this

/-- The other documented methods can be used, with data. -/
theorem methods_usable : ∀ c, ∀ mk ∈ methodTable c, mk.1 ≠ "tabular_low_speed" →
    ∃ r g, buildMission c ⟨some mk.1, r⟩ = .ok (some g) ∧ g.cls = mk.2 := by
  intro c mk h hne
  cases c
  · simp only [methodTable, List.mem_cons, List.not_mem_nil, or_false] at h
    rcases h with rfl | rfl | rfl
    · exact ⟨[], ⟨.computed, [], none⟩, by decide +kernel, rfl⟩
    · exact ⟨[], ⟨.takeoff, [], none⟩, by decide +kernel, rfl⟩
    · exact ⟨[("CD0_data", .text "a"), ("CDI_data", .text "b")], ⟨.tabular, ["CD0_data", "CDI_data"], none⟩, by decide +kernel, rfl⟩
  · simp only [methodTable, List.mem_cons, List.not_mem_nil, or_false] at h
    rcases h with rfl | rfl | rfl | rfl
    · exact ⟨[], ⟨.cruise, [], none⟩, by decide +kernel, rfl⟩
    · exact ⟨[("aero_data", .text "a")], ⟨.tabCruise, ["aero_data"], none⟩, by decide +kernel, rfl⟩
    · exact ⟨[], ⟨.lowSpeed, [], none⟩, by decide +kernel, rfl⟩
    · exact absurd rfl hne

/-- The message about the tables lists all three names, whichever are given. -/
theorem varMsg_all (ks : List String) : varMsg ks = lsTables.map Item.name := by
  simp [varMsg, dataTables, lsTables]

/-- So a table that was given is reported missing. -/
theorem varMsg_violated : ∃ ks, "free_aero_data" ∈ ks ∧ Item.name "free_aero_data" ∈ varMsg ks :=
  ⟨["free_aero_data"], by simp, by rw [varMsg_all]; simp [lsTables]⟩

/-- `solve_alpha` is announced as unused for FLOPS, but with it no method but the default builds. -/
theorem flops_solve_alpha_violated (o : Opts) (hm : o.method ≠ none) (he : o.method ≠ some "external")
    (h : "solve_alpha" ∈ o.keys) : ¬ ∃ r, buildMission .flops o = .ok r := by
  rw [build_ok_iff]
  rintro (h' | h' | ⟨m, k, -, h2, -, h4⟩)
  · exact he h'
  · exact hm h'
  · have := h4 _ h
    simp only [methodTable, List.mem_cons, Prod.mk.injEq, List.not_mem_nil, or_false] at h2
    rcases h2 with ⟨-, rfl⟩ | ⟨-, rfl⟩ | ⟨-, rfl⟩ <;> simp [Cls.declared] at this

/-- With the default method all other options are ignored; named explicitly the same method passes them on. -/
theorem default_drops_options_violated :
    buildMission .gasp ⟨none, [("output_alpha", .flag true)]⟩ = .ok (some ⟨.cruise, [], none⟩) ∧
    buildMission .gasp ⟨some "cruise", [("output_alpha", .flag true)]⟩ = .ok (some ⟨.cruise, ["output_alpha"], none⟩) ∧
    missionInputs .gasp (some ⟨none, [("output_alpha", .flag true)]⟩)
      = missionInputs .gasp (some ⟨some "cruise", [("output_alpha", .flag true)]⟩) := by
  refine ⟨by decide +kernel, by decide +kernel, by decide +kernel⟩

/-- Without other options the default is the named method (up to the name inside the supergroup). -/
theorem default_method (c : Origin) (r : List (String × Val)) (h : r = []) :
    buildMission c ⟨none, r⟩ = buildMission c ⟨some (match c with | .flops => "computed" | .gasp => "cruise"), r⟩ := by
  subst h; cases c <;> decide +kernel

/-- `solve_alpha` puts the balance beside the same group, under a name made of the method. -/
theorem solve_alpha_group (o : Opts) (g : Grp) (h : buildMission .gasp o = .ok (some g)) :
    g.inner = (if solveAlpha o then some (o.method.getD "None" ++ "_aero") else none) := by
  unfold buildMission at h
  split at h
  · simp at h
  · simp only [buildGasp] at h
    have inn : ∀ g', buildGaspGroup o.method (drop "solve_alpha" o.keys) = .ok g' → g'.inner = none := by
      intro g' h'
      have hc : ∀ c ks, construct c ks = .ok g' → g'.inner = none := by
        intro c ks e; rw [construct_ok_iff] at e; rw [e.2]
      unfold buildGaspGroup at h'
      split at h'
      · exact hc _ _ h'
      · repeat' split at h'
        all_goals first | exact hc _ _ h' | simp at h'
    cases e : buildGaspGroup o.method (drop "solve_alpha" o.keys) with
    | error x => rw [e] at h; simp [Except.map] at h
    | ok g' =>
      rw [e] at h
      by_cases s : solveAlpha o = true
      · simp only [s, if_true, Except.map, Except.ok.injEq, Option.some.injEq] at h ⊢
        rw [← h]
      · simp only [s, Except.map, Except.ok.injEq, Option.some.injEq, Bool.false_eq_true, if_false] at h ⊢
        rw [← h]; exact inn g' e

example : buildMission .gasp ⟨none, [("solve_alpha", .flag true)]⟩ = .ok (some ⟨.cruise, [], some "None_aero"⟩) := by
  decide +kernel

/-- Method of a group that was built. -/
theorem built_method (c : Origin) (o : Opts) (g : Grp) (h : buildMission c o = .ok (some g)) :
    o.method = none ∨ ∃ k, (o.method.getD "", k) ∈ methodTable c := by
  have hr := (build_ok_iff c o).1 ⟨_, h⟩
  rcases hr with h' | h' | ⟨m, k, h1, h2, -⟩
  · rw [(build_none_iff c o).2 h'] at h; simp at h
  · exact Or.inl h'
  · exact Or.inr ⟨k, by rw [h1]; exact h2⟩

/-- Whenever a group is built, the lists of promoted inputs and outputs exist. -/
theorem built_promotes (c : Origin) (o : Opts) (g : Grp) (h : buildMission c o = .ok (some g)) :
    (∃ i, missionInputs c (some o) = .ok i) ∧ ∃ u, missionOutputs c (some o) = .ok u := by
  rcases built_method c o g h with h0 | ⟨k, h⟩
  · cases c
    · simp [missionInputs, missionOutputs, h0]
    · simp only [missionInputs, missionOutputs, h0, Option.getD_none]
      refine ⟨?_, ?_⟩
      · simp only [show ¬ ("cruise" = "low_speed" ∨ "cruise" = "tabular_low_speed") by decide, if_false, true_or, if_true]
        split <;> simp
      · simp only [show ¬ ("cruise" = "low_speed" ∨ "cruise" = "tabular_low_speed") by decide, if_false,
          show ¬ ("cruise" = "tabular_cruise") by decide, if_true]
        split <;> simp
  · rcases e : o.method with _ | m
    · rw [e] at h; cases c <;> simp [methodTable] at h
    · rw [e] at h
      cases c
      · simp only [methodTable, Option.getD_some, List.mem_cons, Prod.mk.injEq, List.not_mem_nil, or_false] at h
        refine ⟨?_, ⟨_, rfl⟩⟩
        rcases h with ⟨rfl, -⟩ | ⟨rfl, -⟩ | ⟨rfl, -⟩ <;> simp [missionInputs, e]
      · simp only [methodTable, Option.getD_some, List.mem_cons, Prod.mk.injEq, List.not_mem_nil, or_false] at h
        rcases h with ⟨rfl, -⟩ | ⟨rfl, -⟩ | ⟨rfl, -⟩ | ⟨rfl, -⟩ <;>
          simp only [missionInputs, missionOutputs, e, Option.getD_some] <;> refine ⟨?_, ?_⟩ <;> simp <;> split <;> simp

/-- Asked without options, or for `'external'`, they raise, though the group is declined and the parameters exist. -/
theorem external_inputs_violated (c : Origin) (i : Inputs) :
    buildMission c ⟨some "external", []⟩ = .ok none ∧ getParameters c i (some ⟨some "external", []⟩) = .ok [] ∧
    missionInputs c (some ⟨some "external", []⟩) = .error .value ∧ missionInputs c none = .error .type := by
  cases c <;> refine ⟨by decide +kernel, by simp [getParameters], by decide +kernel, rfl⟩

/-- An `output_alpha` of `False` promotes everything instead of the list for an absent one. -/
theorem output_alpha_false_violated :
    missionOutputs .gasp (some ⟨some "cruise", [("output_alpha", .flag false)]⟩) = .ok ["*"] ∧
    missionOutputs .gasp (some ⟨some "cruise", []⟩) = .ok (polar ++ ["CL_max"]) := by
  refine ⟨by decide +kernel, by decide +kernel⟩

/-- Lift, drag and their coefficients are always promoted, by name or by the star. -/
theorem polar_promoted (c : Origin) (o : Opts) (u : List String) (h : missionOutputs c (some o) = .ok u) :
    ∀ v ∈ polar, ∃ p ∈ u, (Promote.name p).covers v = true := by
  have hp : ∀ r : List String, ∀ v ∈ polar, ∃ p ∈ polar ++ r, (Promote.name p).covers v = true := by
    intro r v hv; exact ⟨v, by simp [hv], by simp [Promote.covers]⟩
  cases c
  · simp only [missionOutputs, Except.ok.injEq] at h
    subst h; simpa using hp []
  · simp only [missionOutputs] at h
    split at h
    · simp only [Except.ok.injEq] at h; subst h; exact hp _
    split at h
    · simp only [Except.ok.injEq] at h; subst h; simpa using hp []
    split at h
    · split at h <;> simp only [Except.ok.injEq] at h <;> subst h
      · exact hp _
      · intro v _; exact ⟨"*", by simp, by simp [Promote.covers]⟩
      · exact hp _
    · simp at h

/-! ### Parameters -/

/-- Data tables have the columns read from them. -/
def HasColumns (o : Opts) : Prop :=
  (∀ cols, o.get "CD0_data" = some (.table cols) → ∀ k ∈ ["altitude", "mach"], ∃ l, cols.lookup k = some l) ∧
  (∀ cols, o.get "CDI_data" = some (.table cols) → ∀ k ∈ ["mach", "lift_coefficient"], ∃ l, cols.lookup k = some l) ∧
  (∀ cols, o.get "aero_data" = some (.table cols) → ∀ k ∈ ["altitude", "mach", "angle_of_attack"], ∃ l, cols.lookup k = some l)

theorem polarEntry_ok (i : Inputs) (d : Val) (var k1 k2 : String)
    (h : ∀ cols, d = .table cols → ∀ k ∈ [k1, k2], ∃ l, cols.lookup k = some l) : ∃ p, polarEntry i d var k1 k2 = .ok p := by
  unfold polarEntry
  cases d with
  | flag b => exact ⟨_, rfl⟩
  | text s => exact ⟨_, rfl⟩
  | table cols =>
    obtain ⟨a, ha⟩ := h cols rfl k1 (by simp)
    obtain ⟨b, hb⟩ := h cols rfl k2 (by simp)
    simp [column, ha, hb]

/-- For a group that was built the parameters exist, unless the aircraft is a blended wing body with a table. -/
theorem built_params (c : Origin) (i : Inputs) (o : Opts) (g : Grp) (h : buildMission c o = .ok (some g)) (hc : HasColumns o)
    (hb : ¬ (c = .gasp ∧ i.bwb = true ∧ g.cls = .tabCruise)) : ∃ p, getParameters c i (some o) = .ok p := by
  have hr := (build_ok_iff c o).1 ⟨_, h⟩
  have hne : o.method ≠ some "external" := fun e => by rw [(build_none_iff c o).2 e] at h; simp at h
  simp only [getParameters, Option.getD_some, hne, if_false]
  cases c
  · simp only [paramsFlops]
    rcases hr with h' | h' | ⟨m, k, h1, h2, h3, -⟩
    · exact absurd h' hne
    · simp [h']
    · simp only [h1, Option.getD_some]
      simp only [methodTable, List.mem_cons, Prod.mk.injEq, List.not_mem_nil, or_false] at h2
      rcases h2 with ⟨rfl, rfl⟩ | ⟨rfl, rfl⟩ | ⟨rfl, rfl⟩
      · simp
      · simp
      · have h0 := (has_iff o "CD0_data").2 (h3 _ (by simp [required]))
        have hI := (has_iff o "CDI_data").2 (h3 _ (by simp [required]))
        obtain ⟨d0, e0⟩ := Option.isSome_iff_exists.1 h0
        obtain ⟨dI, eI⟩ := Option.isSome_iff_exists.1 hI
        obtain ⟨p, hp⟩ := polarEntry_ok i d0 "aircraft:design:lift_independent_drag_polar" "altitude" "mach"
          (fun cols e => hc.1 cols (by rw [e0, e]))
        obtain ⟨q, hq⟩ := polarEntry_ok i dI "aircraft:design:lift_dependent_drag_polar" "mach" "lift_coefficient"
          (fun cols e => hc.2.1 cols (by rw [eI, e]))
        have : flopsTables i o = .ok (p ++ q) := by simp only [flopsTables, e0, hp, eI, hq]
        simp [this, Except.map]
  · simp only [paramsGasp]
    have plain : ∀ m : String, ¬ ("tabular".toList <:+: m.toList) →
        (if (solveAlpha o = true ∧ "tabular".toList <:+: m.toList) then gaspTables i o else .ok []) = .ok [] := by
      intro m hm; rw [if_neg]; exact fun h => hm h.2
    rcases hr with h' | h' | ⟨m, k, h1, h2, h3, -⟩
    · exact absurd h' hne
    · simp only [h', Option.getD_none]
      rw [plain _ (by decide)]
      simp only [show ¬ ("cruise" = "low_speed") by decide, if_false, if_true]
      split <;> simp
    · simp only [h1, Option.getD_some]
      simp only [methodTable, List.mem_cons, Prod.mk.injEq, List.not_mem_nil, or_false] at h2
      rcases h2 with ⟨rfl, rfl⟩ | ⟨rfl, rfl⟩ | ⟨rfl, rfl⟩ | ⟨rfl, rfl⟩
      · rw [plain _ (by decide)]
        simp only [show ¬ ("cruise" = "low_speed") by decide, if_false, if_true]
        split <;> simp
      · have hg : g.cls = .tabCruise := by
          simp only [buildMission, hne, if_false, buildGasp] at h
          cases e : buildGaspGroup o.method (drop "solve_alpha" o.keys) with
          | error x => rw [e] at h; simp [Except.map] at h
          | ok g' =>
            rw [e] at h
            have hg' : g'.cls = .tabCruise := by
              simp only [h1, buildGaspGroup, show ¬ ("tabular_cruise" = "cruise") by decide, if_true, if_false] at e
              split at e
              · rw [construct_ok_iff] at e; rw [e.2]
              · simp at e
            simp only at h
            split at h <;> simp only [Except.map, Except.ok.injEq, Option.some.injEq] at h <;> rw [← h] <;> exact hg'
        have hbw : i.bwb = false := by
          cases e : i.bwb
          · rfl
          · exact absurd ⟨rfl, e, hg⟩ hb
        have ht : ∃ t, gaspTables i o = .ok t := by
          have hA := (has_iff o "aero_data").2 (h3 _ (by simp [required]))
          obtain ⟨d, e⟩ := Option.isSome_iff_exists.1 hA
          unfold gaspTables
          rw [e]
          cases d with
          | flag b => exact ⟨_, rfl⟩
          | text s => exact ⟨_, rfl⟩
          | table cols =>
            obtain ⟨a, ha⟩ := hc.2.2 cols e "altitude" (by simp)
            obtain ⟨b, hb'⟩ := hc.2.2 cols e "mach" (by simp)
            obtain ⟨d, hd⟩ := hc.2.2 cols e "angle_of_attack" (by simp)
            simp [column, ha, hb', hd]
        obtain ⟨t, ht⟩ := ht
        have : ∃ t', (if (solveAlpha o = true ∧ "tabular".toList <:+: "tabular_cruise".toList) then gaspTables i o else .ok [])
            = .ok t' := by
          split
          · exact ⟨t, ht⟩
          · exact ⟨[], rfl⟩
        obtain ⟨t', ht'⟩ := this
        rw [ht']
        simp [hbw]
      · rw [plain _ (by decide)]
        simp only [if_true]
        split <;> simp
      · exact absurd ⟨_, h⟩ (tabular_low_speed_violated o h1)

/-- The exception: for a blended wing body with a table the builder calls `add` on a list. -/
theorem bwb_tabular_violated (i : Inputs) (h : i.bwb = true) :
    buildMission .gasp ⟨some "tabular_cruise", [("aero_data", .text "t")]⟩ = .ok (some ⟨.tabCruise, ["aero_data"], none⟩) ∧
    getParameters .gasp i (some ⟨some "tabular_cruise", [("aero_data", .text "t")]⟩) = .error .attribute := by
  refine ⟨by decide +kernel, ?_⟩
  have hs : solveAlpha ⟨some "tabular_cruise", [("aero_data", .text "t")]⟩ = false := by decide +kernel
  simp [getParameters, paramsGasp, hs, h]

/-- The parameter list of a blended wing body is the one of a transport. -/
theorem coreComputed_bwb (i : Inputs) (b : Bool) : coreComputed { i with bwb := b } = coreComputed i := by
  have : computedCoreBwb = computedCore := rfl
  cases b <;> cases h : i.bwb <;> simp [coreComputed, this, h]

/-- The tail variables are parameters exactly when there is such a tail. -/
theorem hTail_iff (i : Inputs) : ∀ v ∈ hTail, (v ∈ coreComputed i ↔ i.numH ≠ 0) := by
  have d1 : ∀ v ∈ hTail, v ∉ computedCore := by decide +kernel
  have d2 : ∀ v ∈ hTail, v ∉ vTail := by decide +kernel
  have e : computedCoreBwb = computedCore := rfl
  intro v hv
  unfold coreComputed
  rw [e]
  by_cases h : i.numH = 0 <;> by_cases k : i.numV = 0 <;> simp [h, k, d1 v hv, d2 v hv, hv]

theorem vTail_iff (i : Inputs) : ∀ v ∈ vTail, (v ∈ coreComputed i ↔ i.numV ≠ 0) := by
  have d1 : ∀ v ∈ vTail, v ∉ computedCore := by decide +kernel
  have d2 : ∀ v ∈ vTail, v ∉ hTail := by decide +kernel
  have e : computedCoreBwb = computedCore := rfl
  intro v hv
  unfold coreComputed
  rw [e]
  by_cases h : i.numH = 0 <;> by_cases k : i.numV = 0 <;> simp [h, k, d1 v hv, d2 v hv, hv]

theorem computedCore_mem (i : Inputs) : ∀ v ∈ computedCore, v ∈ coreComputed i := by
  have e : computedCoreBwb = computedCore := rfl
  intro v hv
  unfold coreComputed
  rw [e]
  by_cases h : i.numH = 0 <;> by_cases k : i.numV = 0 <;> simp [h, k, hv]

theorem coreComputed_sub (i : Inputs) : ∀ v ∈ coreComputed i, v ∈ computedCore ++ hTail ++ vTail := by
  have e : computedCoreBwb = computedCore := rfl
  intro v
  unfold coreComputed
  rw [e]
  by_cases h : i.numH = 0 <;> by_cases k : i.numV = 0 <;> simp [h, k] <;> tauto

theorem coreComputed_nodup (i : Inputs) : (coreComputed i ++ engineSized).Nodup := by
  have e : computedCoreBwb = computedCore := rfl
  have n1 : (computedCore ++ engineSized).Nodup := by decide +kernel
  have n2 : (computedCore ++ vTail ++ engineSized).Nodup := by decide +kernel
  have n3 : (computedCore ++ hTail ++ engineSized).Nodup := by decide +kernel
  have n4 : (computedCore ++ hTail ++ vTail ++ engineSized).Nodup := by decide +kernel
  unfold coreComputed
  rw [e]
  repeat' split
  all_goals assumption

theorem covers_aircraft (v : String) (h : "aircraft:".toList.isPrefixOf v.toList = true) :
    (Promote.name "aircraft:*").covers v = true := by
  have e1 : "aircraft:*".toList.getLast? = some '*' := by decide
  have e2 : "aircraft:*".toList.dropLast = "aircraft:".toList := by decide
  simp only [Promote.covers, e1, e2, h, decide_true, Bool.and_true, Bool.or_true]

/-- Every parameter is among the promoted inputs, so the value reaches the group. -/
theorem params_promoted (c : Origin) (i : Inputs) (o : Opts) (p : List (String × Src)) (ins : List Promote)
    (hp : getParameters c i (some o) = .ok p) (hi : missionInputs c (some o) = .ok ins) :
    ∀ x ∈ p, ∃ q ∈ ins, q.covers x.1 = true := by
  intro x hx
  cases c
  · have air : ∀ v ∈ computedCore ++ hTail ++ vTail ++ engineSized ++ tabularCore ++
        ["aircraft:design:lift_independent_drag_polar", "aircraft:design:lift_dependent_drag_polar"],
        "aircraft:".toList.isPrefixOf v.toList = true := by decide +kernel
    simp only [missionInputs] at hi
    simp only [getParameters, Option.getD_some, paramsFlops] at hp
    split at hp
    · simp only [Except.ok.injEq] at hp; subst hp; simp at hx
    · obtain ⟨m, hm⟩ : ∃ m, o.method.getD "computed" = m := ⟨_, rfl⟩
      simp only [hm] at hp hi
      by_cases h1 : m = "computed"
      · simp only [h1, if_true, Except.ok.injEq] at hp hi
        subst hi; subst hp
        refine ⟨.name "aircraft:*", by simp, covers_aircraft _ (air _ ?_)⟩
        simp only [List.mem_append, List.mem_map] at hx
        rcases hx with ⟨v, hv, rfl⟩ | ⟨v, hv, rfl⟩
        · have := coreComputed_sub i v hv
          simp only [valueOf, List.mem_append] at this ⊢; tauto
        · simp only [List.mem_append]; tauto
      by_cases h2 : m = "tabular"
      · subst h2
        simp only [show ¬ ("tabular" = "computed") by decide, show ¬ ("tabular" = "low_speed") by decide, if_true, if_false,
          Except.ok.injEq] at hp hi
        subst hi
        refine ⟨.name "aircraft:*", by simp, covers_aircraft _ (air _ ?_)⟩
        have pe : ∀ d var k1 k2 l, polarEntry i d var k1 k2 = .ok l → ∀ y ∈ l, y.1 = var := by
          intro d var k1 k2 l hl y hy
          unfold polarEntry at hl
          split at hl
          · split at hl
            · simp only [Except.ok.injEq] at hl; subst hl
              simp only [List.mem_cons, List.not_mem_nil, or_false] at hy; rw [hy]
            · simp at hl
          · simp only [Except.ok.injEq] at hl; subst hl; simp at hy
        cases ht : flopsTables i o with
        | error e => rw [ht] at hp; simp [Except.map] at hp
        | ok t =>
          rw [ht] at hp
          simp only [Except.map, Except.ok.injEq] at hp
          subst hp
          simp only [List.mem_append, List.mem_map] at hx
          rcases hx with hx | ⟨v, hv, rfl⟩
          · unfold flopsTables at ht
            split at ht
            · simp at ht
            · split at ht
              · simp at ht
              · rename_i l1 e1
                split at ht
                · simp at ht
                · split at ht
                  · simp at ht
                  · rename_i l2 e2
                    simp only [Except.ok.injEq] at ht
                    subst ht
                    simp only [List.mem_append] at hx
                    rcases hx with hx | hx
                    · rw [pe _ _ _ _ _ e1 _ hx]; simp
                    · rw [pe _ _ _ _ _ e2 _ hx]; simp
          · simp only [valueOf, List.mem_append]; tauto
      by_cases h3 : m = "low_speed"
      · subst h3
        simp only [show ¬ ("low_speed" = "computed") by decide, show ¬ ("low_speed" = "tabular") by decide, if_true, if_false,
          Except.ok.injEq] at hp hi
        subst hi; subst hp
        simp only [List.mem_map] at hx
        obtain ⟨v, hv, rfl⟩ := hx
        refine ⟨.name v, ?_, by simp [Promote.covers, valueOf]⟩
        simp only [lowSpeedCore, List.mem_cons, List.not_mem_nil, or_false] at hv
        rcases hv with rfl | rfl | rfl | rfl | rfl <;> simp
      · simp [h1, h2, h3] at hi
  · have star : ∀ v, (Promote.name "*").covers v = true := by
      intro v
      have e1 : "*".toList.getLast? = some '*' := by decide
      have e2 : "*".toList.dropLast = [] := by decide
      simp [Promote.covers]
    refine ⟨.name "*", ?_, star _⟩
    simp only [missionInputs] at hi
    split at hi
    · simp only [Except.ok.injEq] at hi; subst hi; simp
    · split at hi
      · split at hi <;> simp only [Except.ok.injEq] at hi <;> subst hi <;> simp
      · simp at hi

/-- A user's value is taken for every variable but the ones sized by engines. -/
theorem params_user (i : Inputs) (o : Opts) (p : List (String × Src)) (hm : o.method = none ∨ o.method = some "computed")
    (hp : getParameters .flops i (some o) = .ok p) :
    ∀ v s, (v, s) ∈ p → (v ∈ engineSized ∧ s = .sized i.engineTypes) ∨ (v ∈ coreComputed i ∧ (s = .user ↔ i.present v = true)) := by
  intro v s h
  have hne : o.method ≠ some "external" := by rcases hm with e | e <;> rw [e] <;> decide
  have hg : o.method.getD "computed" = "computed" := by rcases hm with e | e <;> rw [e] <;> rfl
  simp only [getParameters, Option.getD_some, hne, if_false, paramsFlops, hg, if_true, Except.ok.injEq] at hp
  subst hp
  simp only [List.mem_append, List.mem_map, valueOf, Prod.mk.injEq] at h
  rcases h with ⟨w, hw, rfl, rfl⟩ | ⟨w, hw, rfl, rfl⟩
  · refine Or.inr ⟨hw, ?_⟩
    by_cases a : i.present w = true <;> simp [a]
  · exact Or.inl ⟨hw, rfl⟩

/-- No parameter is given twice. -/
theorem params_nodup (i : Inputs) (o : Opts) (p : List (String × Src)) (hm : o.method = none ∨ o.method = some "computed")
    (hp : getParameters .flops i (some o) = .ok p) : (p.map (·.1)).Nodup := by
  have hne : o.method ≠ some "external" := by rcases hm with e | e <;> rw [e] <;> decide
  have hg : o.method.getD "computed" = "computed" := by rcases hm with e | e <;> rw [e] <;> rfl
  simp only [getParameters, Option.getD_some, hne, if_false, paramsFlops, hg, if_true, Except.ok.injEq] at hp
  subst hp
  have : ((coreComputed i).map (valueOf i) ++ engineSized.map (fun v => (v, Src.sized i.engineTypes))).map (·.1)
      = coreComputed i ++ engineSized := by
    simp [valueOf, Function.comp_def]
  rw [this]; exact coreComputed_nodup i

/-! ### Shapes of tables -/

/-- First column of free-format data over the grid `A × B`. -/
def gridX (A B : List ℚ) : List ℚ := A.flatMap (fun a => B.map (fun _ => a))
/-- Second column. -/
def gridY (A B : List ℚ) : List ℚ := A.flatMap (fun _ => B)

theorem unique_eq (l : List ℚ) : unique l = l.toFinset.card := by
  simp [unique, List.toFinset, Multiset.toFinset, Finset.card]

theorem unique_of_mem (l A : List ℚ) (hA : A.Nodup) (h : ∀ x, x ∈ l ↔ x ∈ A) : unique l = A.length := by
  rw [unique_eq, ← List.toFinset_card_of_nodup hA]
  congr 1; ext x; simp [h]

theorem gridX_length (A B : List ℚ) : (gridX A B).length = A.length * B.length := by
  simp [gridX, List.length_flatMap]

theorem gridY_length (A B : List ℚ) : (gridY A B).length = A.length * B.length := by
  simp [gridY, List.length_flatMap]

theorem mem_gridX (A B : List ℚ) (hB : B ≠ []) (x : ℚ) : x ∈ gridX A B ↔ x ∈ A := by
  simp only [gridX, List.mem_flatMap, List.mem_map]
  constructor
  · rintro ⟨a, ha, b, -, rfl⟩; exact ha
  · intro h
    obtain ⟨b, hb⟩ := List.exists_mem_of_ne_nil B hB
    exact ⟨x, h, b, hb, rfl⟩

theorem mem_gridY (A B : List ℚ) (hA : A ≠ []) (x : ℚ) : x ∈ gridY A B ↔ x ∈ B := by
  simp only [gridY, List.mem_flatMap]
  constructor
  · rintro ⟨a, -, h⟩; exact h
  · intro h
    obtain ⟨a, ha⟩ := List.exists_mem_of_ne_nil A hA
    exact ⟨a, ha, h⟩

/-- Pre-formatted data (the first axis without repetition) keep the lengths of their axes. -/
theorem shape_formatted (x : List ℚ) (more : List (List ℚ)) (h : x.Nodup) :
    tableShape x more = (x :: more).map List.length := by
  have : unique x = x.length := by simp [unique, h.dedup]
  simp [tableShape, this]

/-- Free-format data over a grid: the shape is the one of the grid exactly when the second axis has two values, or the first only
one. -/
theorem shape_free_iff (A B : List ℚ) (hA : A.Nodup) (hB : B.Nodup) (hA0 : A ≠ []) (hB0 : B ≠ []) :
    tableShape (gridX A B) [gridY A B] = [A.length, B.length] ↔ 2 ≤ B.length ∨ A.length = 1 := by
  have u1 := unique_of_mem _ A hA (mem_gridX A B hB0)
  have u2 := unique_of_mem _ B hB (mem_gridY A B hA0)
  have a0 : 0 < A.length := List.length_pos_iff.2 hA0
  have b0 : 0 < B.length := List.length_pos_iff.2 hB0
  unfold tableShape
  rw [u1, gridX_length]
  by_cases h : 2 ≤ B.length
  · have : A.length * B.length > A.length := by nlinarith
    simp [this, u1, u2, h]
  · have h1 : B.length = 1 := by omega
    simp only [h1, mul_one, gt_iff_lt, lt_self_iff_false, if_false, List.map_cons, List.map_nil, gridX_length, gridY_length,
      List.cons.injEq, and_true, true_and]
    omega

/-- So a table of several altitudes at one Mach number gets the wrong shape. -/
theorem shape_violated : ∃ A B : List ℚ, A.Nodup ∧ B.Nodup ∧ A ≠ [] ∧ B ≠ [] ∧
    tableShape (gridX A B) [gridY A B] ≠ [A.length, B.length] := by
  refine ⟨[0, 1], [1/2], by decide, by decide, by decide, by decide, ?_⟩
  rw [Ne, shape_free_iff _ _ (by decide) (by decide) (by decide) (by decide)]
  decide

/-- Columns of free-format data over `A × B × C`. -/
def gridX3 (A B C : List ℚ) : List ℚ := gridX A (gridX B C)
def gridY3 (A B C : List ℚ) : List ℚ := gridY A (gridX B C)
def gridZ3 (A B C : List ℚ) : List ℚ := gridY A (gridY B C)

/-- The same with three columns. -/
theorem shape_free3_iff (A B C : List ℚ) (hA : A.Nodup) (hB : B.Nodup) (hC : C.Nodup) (hA0 : A ≠ []) (hB0 : B ≠ [])
    (hC0 : C ≠ []) :
    tableShape (gridX3 A B C) [gridY3 A B C, gridZ3 A B C] = [A.length, B.length, C.length] ↔
      2 ≤ B.length * C.length ∨ A.length = 1 := by
  have a0 : 0 < A.length := List.length_pos_iff.2 hA0
  have b0 : 0 < B.length := List.length_pos_iff.2 hB0
  have c0 : 0 < C.length := List.length_pos_iff.2 hC0
  have bc : 0 < B.length * C.length := Nat.mul_pos b0 c0
  have hX0 : gridX B C ≠ [] := by rw [← List.length_pos_iff, gridX_length]; exact bc
  have u1 : unique (gridX3 A B C) = A.length := unique_of_mem _ A hA (mem_gridX A _ hX0)
  have u2 : unique (gridY3 A B C) = B.length :=
    unique_of_mem _ B hB (fun x => (mem_gridY A _ hA0 x).trans (mem_gridX B C hC0 x))
  have u3 : unique (gridZ3 A B C) = C.length :=
    unique_of_mem _ C hC (fun x => (mem_gridY A _ hA0 x).trans (mem_gridY B C hB0 x))
  have l1 : (gridX3 A B C).length = A.length * (B.length * C.length) := by simp [gridX3, gridX_length]
  have l2 : (gridY3 A B C).length = A.length * (B.length * C.length) := by simp [gridY3, gridX_length, gridY_length]
  have l3 : (gridZ3 A B C).length = A.length * (B.length * C.length) := by simp [gridZ3, gridY_length]
  unfold tableShape
  rw [u1, l1]
  by_cases h : 2 ≤ B.length * C.length
  · have : A.length * (B.length * C.length) > A.length := by nlinarith
    simp [this, u1, u2, u3, h]
  · have h1 : B.length * C.length = 1 := by omega
    have hb : B.length = 1 := Nat.dvd_one.1 ⟨_, h1.symm⟩
    have hc : C.length = 1 := Nat.dvd_one.1 ⟨B.length, by rw [Nat.mul_comm]; exact h1.symm⟩
    simp only [h1, hb, hc, mul_one, gt_iff_lt, lt_self_iff_false, if_false, List.map_cons, List.map_nil, l1, l2, l3,
      List.cons.injEq, and_true, true_and]
    omega

/-! ### Pre-mission, geometry and reports -/

/-- The bus variables are announced exactly for the GASP pre-mission, except that they are also announced for `'external'`. -/
theorem busVars_partial (c : Origin) (t : Bool) (o : Opts) (h : o.method ≠ some "external") :
    busVars c t ≠ [] ↔ preMission c t o = some .gasp := by
  cases c <;> cases t <;> simp [busVars, preMission, h]

theorem busVars_violated : ∃ c t o, busVars c t ≠ [] ∧ preMission c t o = none :=
  ⟨.gasp, false, ⟨some "external", []⟩, by decide, by decide +kernel⟩

/-- With the tabular flag even an external method gets a pre-mission group. -/
theorem tabular_external_violated (c : Origin) : preMission c true ⟨some "external", []⟩ = some .liftOverDrag := rfl

/-- A geometry builder made for one code, or for both in the one order, builds a group. -/
theorem geo_partial (c : GeoOrigin) (m : Option String) (hm : m ≠ some "external") (h : geoInit c = .ok c)
    (hc : ∀ l, c = .tuple l → l = [.flops, .gasp]) : geoPre c m ≠ none := by
  cases c with
  | none => simp [geoInit] at h
  | one c => cases c <;> simp [geoPre, hm]
  | tuple l => rw [hc l rfl]; simp [geoPre, hm]

/-- In the other order the check passes and nothing is built. -/
theorem geo_order_violated : geoInit (.tuple [.gasp, .flops]) = .ok (.tuple [.gasp, .flops]) ∧
    ∀ m, geoPre (.tuple [.gasp, .flops]) m = none := by
  refine ⟨by simp [geoInit], fun m => ?_⟩
  unfold geoPre
  split
  · simp
  · rfl

/-- A value in the problem wins over `aviary_inputs`; one of the two is reported if there is any. -/
theorem findVar_found (conv : RVal → String → String → RVal) (l : Lookup) :
    ((l.problem = none ∧ l.inputs = none) → findVar conv l = (.text "Not Found in Model", "unknown")) ∧
    (∀ v, l.problem = some v → (findVar conv l).1 = unbox v) ∧
    (∀ v u, l.problem = none → l.inputs = some (v, u) →
      (findVar conv l).1 = unbox (match l.md with | some w => conv v u w | none => v)) := by
  rcases l with ⟨m, p, i⟩
  refine ⟨?_, ?_, ?_⟩
  · rintro ⟨h1, h2⟩; simp only at h1 h2; subst h1 h2; cases m <;> rfl
  · intro v h; simp only at h; subst h; cases m <;> rfl
  · intro v u h1 h2; simp only at h1 h2; subst h1 h2; cases m <;> rfl

/-- The units reported are the metadata's whenever a value is found and the metadata have any. -/
theorem findVar_units (conv : RVal → String → String → RVal) (l : Lookup) (u : String) (h : l.md = some u)
    (hf : l.problem ≠ none ∨ l.inputs ≠ none) : (findVar conv l).2 = unitName (some u) := by
  rcases l with ⟨m, p, i⟩
  simp only at h hf; subst h
  cases p with
  | some v => rfl
  | none =>
    cases i with
    | none => simp at hf
    | some x => rfl

/-- A value from the problem without units in the metadata has unknown units, even if `aviary_inputs` knows them. -/
theorem findVar_units_unknown (conv : RVal → String → String → RVal) (v : RVal) (i : Option (RVal × String)) :
    (findVar conv ⟨none, some v, i⟩).2 = "unknown" := rfl

theorem engineRows_num (x : ℚ) (ns : List ℚ) (i : ℕ) : engineRows (.num x) ns i = .ok (ns.map (fun n => (x, x * n))) := by
  induction ns generalizing i with
  | nil => rfl
  | cons n ns ih => simp [engineRows, ih, Except.map]

/-- Every engine is reported with the mass of the first. -/
theorem engineRows_first (x : ℚ) (xs ns : List ℚ) : engineRows (.arr (x :: xs)) ns 0 = .ok (ns.map (fun n => (x, x * n))) := by
  cases ns with
  | nil => rfl
  | cons n ns => simp [engineRows, engineRows_num, Except.map]

/-- So the rows are the masses of the engines exactly when all engines weigh the same. -/
theorem engineRows_iff (l ns : List ℚ) (h : l.length = ns.length) :
    engineRows (.arr l) ns 0 = .ok (List.zipWith (fun x n => (x, x * n)) l ns) ↔ ∀ x ∈ l, some x = l.head? := by
  cases l with
  | nil =>
    have : ns = [] := List.length_eq_zero_iff.1 (by simpa using h.symm)
    subst this; simp [engineRows]
  | cons x xs =>
    rw [engineRows_first]
    simp only [Except.ok.injEq, List.head?_cons, Option.some.injEq]
    constructor
    · intro e y hy
      obtain ⟨k, hk, rfl⟩ := List.mem_iff_getElem.1 hy
      have hk2 : k < ns.length := h ▸ hk
      have := congrArg (fun r => r[k]?) e
      simp only [List.getElem?_map, List.getElem?_zipWith, List.getElem?_eq_getElem hk2, List.getElem?_eq_getElem hk,
        Option.map_some, Option.some.injEq, Prod.mk.injEq] at this
      exact this.1.symm
    · intro e
      apply List.ext_getElem
      · simp [h]
      · intro k h1 h2
        have hk : k < (x :: xs).length := by rw [h]; simpa using h1
        have := e _ (List.getElem_mem hk)
        simp [this]

theorem engineRows_violated : engineRows (.arr [100, 50]) [2, 1] 0 ≠ .ok [(100, 200), (50, 50)] := by
  rw [engineRows_first]; decide +kernel

/-- Two masses in the same units are added. -/
theorem sumRow_same (conv : ℚ → String → String → Except Err ℚ) (x y : ℚ) (u : String) :
    sumRow conv (.num x, u) (.num y, u) = .ok (some (x + y, u)) := by simp [sumRow]

/-- In different units the second is converted first. -/
theorem sumRow_convert (conv : ℚ → String → String → Except Err ℚ) (x y z : ℚ) (u w : String) (h : u ≠ w)
    (hc : conv y w u = .ok z) : sumRow conv (.num x, u) (.num y, w) = .ok (some (x + z, u)) := by
  simp [sumRow, h, hc, Except.map]

/-- With only the first the sum is the first; with neither there is no row. -/
theorem sumRow_first (conv : ℚ → String → String → Except Err ℚ) (x : ℚ) (u : String) :
    sumRow conv (.num x, u) (.text "Not Found in Model", "unknown") = .ok (some (x, u)) ∧
    sumRow conv (.text "Not Found in Model", "unknown") (.text "Not Found in Model", "unknown") = .ok none := by
  constructor <;> simp [sumRow]

/-- With only the second the report fails: the second is converted to unknown units. -/
theorem sumRow_second_violated (conv : ℚ → String → String → Except Err ℚ) (y : ℚ) (w : String) (e : Err) (h : w ≠ "unknown")
    (hc : conv y w "unknown" = .error e) :
    sumRow conv (.text "Not Found in Model", "unknown") (.num y, w) = .error e := by
  have : ¬ ("unknown" = w) := fun h' => h h'.symm
  simp [sumRow, this, hc, Except.map]

example : sumRow (fun _ _ _ => .error .type) (.text "Not Found in Model", "unknown") (.num 300, "lbm") = .error .type :=
  sumRow_second_violated _ _ _ _ (by decide) rfl

/-- The options that count as no: `False`, the empty text, a table without columns. -/
theorem truth_false (v : Val) : v.truth = false ↔ v = .flag false ∨ v = .text "" ∨ v = .table [] := by
  cases v with
  | flag b => simp [Val.truth]
  | text s => simp [Val.truth]
  | table c => cases c <;> simp [Val.truth]

/-- An entry covers the name it is, and with a final star the names that begin with the rest. -/
theorem covers_iff (p v : String) :
    (Promote.name p).covers v = true ↔ p = v ∨ ∃ q, p.toList = q ++ ['*'] ∧ q <+: v.toList := by
  simp only [Promote.covers, Bool.or_eq_true, decide_eq_true_eq, Bool.and_eq_true, List.isPrefixOf_iff_prefix]
  refine or_congr Iff.rfl ⟨?_, ?_⟩
  · rintro ⟨h1, h2⟩
    refine ⟨p.toList.dropLast, ?_, h2⟩
    rw [List.getLast?_eq_some_iff] at h1
    obtain ⟨ys, h⟩ := h1
    rw [h, List.dropLast_concat]
  · rintro ⟨q, h1, h2⟩
    rw [h1]
    simp [h2]

/-- Drag and lift coefficients are recorded unless the aerodynamics are external. -/
theorem timeseries_spec (so : Option Opts) :
    timeseries so = if ∃ o, so = some o ∧ o.method = some "external" then [] else ["drag_coefficient", "lift_coefficient"] := by
  cases so with
  | none => simp [timeseries]
  | some o => by_cases h : o.method = some "external" <;> simp [timeseries, h]

/-- Accepted origins of geometry: one code, or any sequence with both. -/
theorem geoInit_ok (c d : GeoOrigin) :
    geoInit c = .ok d ↔ c = d ∧ ((∃ x, c = .one x) ∨ ∃ l, c = .tuple l ∧ .flops ∈ l ∧ .gasp ∈ l) := by
  cases c with
  | none => simp [geoInit]
  | one x => simp [geoInit]
  | tuple l =>
    by_cases h : .flops ∈ l ∧ .gasp ∈ l
    · simp [geoInit, h]
    · simp only [geoInit, if_neg h]
      constructor
      · intro h'; cases h'
      · rintro ⟨-, ⟨x, hx⟩ | ⟨l', hl, h'⟩⟩
        · cases hx
        · cases hl; exact absurd h' h

/-- Units are shown as they are, but none and empty ones as unknown and `unitless` as a dash. -/
theorem unitName_spec (u : Option String) :
    (u = none ∨ u = some "" → unitName u = "unknown") ∧ (u = some "unitless" → unitName u = "-") ∧
      ∀ s, u = some s → s ≠ "" → s ≠ "unitless" → unitName u = s := by
  refine ⟨?_, ?_, ?_⟩
  · rintro (rfl | rfl) <;> rfl
  · rintro rfl; rfl
  · rintro s rfl h1 h2; simp [unitName, h1, h2]

end Verif.Builders
