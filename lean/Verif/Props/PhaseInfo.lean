import Mathlib.Tactic.Linarith
import Mathlib.Tactic.NormNum
import Verif.Model.PhaseInfo
import Verif.Model.LinkPhases

/-!
# C76, C77: checks and time options of phases
-/

namespace Verif.PhaseInfo

/-! ## C76 Durations and target distances are checked and passed on to the guesses -/

theorem setDurations_length {conv : String → String → Option ℚ} {ps qs : List PInfo} (h : setDurations conv ps = .ok qs) :
    qs.length = ps.length := by
  induction ps generalizing qs with
  | nil => cases h; rfl
  | cons p ps ih =>
    unfold setDurations at h
    split at h
    · cases h
    · split at h
      · cases h
      · rename_i _ hq
        cases h
        simp [ih hq]

theorem setDurations_get {conv : String → String → Option ℚ} {ps qs : List PInfo} (h : setDurations conv ps = .ok qs) :
    List.Forall₂ (fun p q => setDuration conv p = .ok q) ps qs := by
  induction ps generalizing qs with
  | nil => cases h; exact .nil
  | cons p ps ih =>
    unfold setDurations at h
    split at h
    · cases h
    · rename_i q hq
      split at h
      · cases h
      · rename_i qs' hqs
        cases h
        exact .cons hq (ih hqs)

theorem setDurations_of {conv : String → String → Option ℚ} {ps qs : List PInfo}
    (h : List.Forall₂ (fun p q => setDuration conv p = .ok q) ps qs) : setDurations conv ps = .ok qs := by
  induction h with
  | nil => rfl
  | cons h _ ih => simp [setDurations, h, ih]

theorem preprocess_ok {conv : String → String → Option ℚ} {ps qs : List PInfo} :
    preprocess conv ps = .ok qs ↔ (∀ p ∈ ps, targetOk p = true) ∧
      List.Forall₂ (fun p q => setDuration conv p = .ok q) ps qs := by
  unfold preprocess
  split
  · rename_i h
    rw [List.all_eq_true] at h
    exact ⟨fun hq => ⟨h, setDurations_get hq⟩, fun hq => setDurations_of hq.2⟩
  · rename_i h
    rw [List.all_eq_true] at h
    constructor
    · intro hq; cases hq
    · intro hq; exact absurd hq.1 h

/-- Options that pass have positive target distances and durations. -/
theorem preprocess_positive {conv : String → String → Option ℚ} {ps qs : List PInfo} (h : preprocess conv ps = .ok qs)
    {p : PInfo} (hp : p ∈ ps) {u : UserOpts} (hu : p.userOptions = some u) :
    (∀ d un, u.targetDistance = some (some d, un) → 0 < d) ∧ (∀ d un, u.timeDuration = some (some d, un) → 0 < d) := by
  obtain ⟨h1, h2⟩ := preprocess_ok.1 h
  constructor
  · intro d un hd
    have := h1 p hp
    simp only [targetOk, hu, hd, decide_eq_true_eq] at this
    exact not_le.1 this
  · intro d un hd
    have : ∃ q, setDuration conv p = .ok q := by
      clear h h1
      induction h2 with
      | nil => simp at hp
      | cons h _ ih =>
        rcases List.mem_cons.1 hp with rfl | hp
        · exact ⟨_, h⟩
        · exact ih hp
    obtain ⟨q, hq⟩ := this
    unfold setDuration at hq
    simp only [hu, hd] at hq
    by_contra hn
    rw [if_pos (not_lt.1 hn)] at hq
    cases hq

/-- The guess for the duration of a phase of fixed duration is that duration, in the units of the guess; the guess for
the start and all other guesses stay as they are. -/
theorem setDuration_guess {conv : String → String → Option ℚ} {p q : PInfo} (h : setDuration conv p = .ok q) {u : UserOpts}
    (hu : p.userOptions = some u) {d : ℚ} {un : String} (hd : u.timeDuration = some (some d, un)) :
    ∃ g start d' un', q.guesses = some g ∧ g.time = some ((start, some d'), un') ∧
      g.others = (p.guesses.map (·.others)).getD [] ∧
      (∀ t, (p.guesses.bind (·.time)) = some t → start = t.1.1 ∧ un' = t.2 ∧ ∃ f, conv un un' = some f ∧ d' = d * f) ∧
      ((p.guesses.bind (·.time)) = none → start = none ∧ un' = un ∧ d' = d) := by
  unfold setDuration at h
  simp only [hu, hd] at h
  split at h
  · cases h
  · split at h
    · rename_i hg
      cases h
      refine ⟨_, _, _, _, rfl, rfl, ?_, ?_, ?_⟩
      · cases p.guesses <;> rfl
      · intro t ht
        cases hp : p.guesses <;> simp_all
      · intro _; simp
    · rename_i start x gu hg
      split at h
      · cases h
      · rename_i f hf
        cases h
        refine ⟨_, _, _, _, rfl, rfl, ?_, ?_, ?_⟩
        · cases p.guesses <;> rfl
        · intro t ht
          cases hp : p.guesses with
          | none => simp [hp] at ht
          | some g =>
            simp only [hp, Option.getD_some] at hg
            simp only [hp, Option.bind_some, hg, Option.some.injEq] at ht
            subst ht
            exact ⟨rfl, rfl, f, hf, rfl⟩
        · intro ht
          cases hp : p.guesses with
          | none => simp [hp] at hg
          | some g =>
            simp only [hp, Option.getD_some] at hg
            simp [hp, hg] at ht

/-- Phases without fixed duration are left alone, and no phase gets other options or another name. -/
theorem setDuration_frame {conv : String → String → Option ℚ} {p q : PInfo} (h : setDuration conv p = .ok q) :
    q.name = p.name ∧ q.userOptions = p.userOptions ∧
      ((∀ u d un, p.userOptions = some u → u.timeDuration ≠ some (some d, un)) → q = p) := by
  unfold setDuration at h
  split at h
  · cases h; exact ⟨rfl, rfl, fun _ => rfl⟩
  · rename_i u hu
    split at h
    · cases h; exact ⟨rfl, rfl, fun _ => rfl⟩
    · cases h; exact ⟨rfl, rfl, fun _ => rfl⟩
    · rename_i d un hd
      split at h
      · cases h
      · simp only at h
        split at h
        · cases h; exact ⟨rfl, rfl, fun hn => absurd hd (hn u d un hu)⟩
        · split at h
          · cases h
          · cases h; exact ⟨rfl, rfl, fun hn => absurd hd (hn u d un hu)⟩

/-- Preprocessing a second time changes nothing, if no conversion is needed between equal units. -/
theorem setDuration_idem {conv : String → String → Option ℚ} (hc : ∀ u, conv u u = some 1) {p q : PInfo}
    (h : setDuration conv p = .ok q) : setDuration conv q = .ok q := by
  unfold setDuration at h
  split at h
  · rename_i hu; cases h; simp [setDuration, hu]
  · rename_i u hu
    split at h
    · rename_i hd; cases h; simp [setDuration, hu, hd]
    · rename_i hd; cases h; simp [setDuration, hu, hd]
    · rename_i d un hd
      split at h
      · cases h
      · rename_i hpos
        simp only at h
        split at h
        · cases h; simp [setDuration, hu, hd, hpos, hc]
        · split at h
          · cases h
          · rename_i f hf
            cases h; simp [setDuration, hu, hd, hpos, hf]

theorem preprocess_idem {conv : String → String → Option ℚ} (hc : ∀ u, conv u u = some 1) {ps qs : List PInfo}
    (h : preprocess conv ps = .ok qs) : preprocess conv qs = .ok qs := by
  obtain ⟨h1, h2⟩ := preprocess_ok.1 h
  refine preprocess_ok.2 ⟨?_, ?_⟩
  · clear h
    induction h2 with
    | nil => simp
    | cons hpq _ ih =>
      intro r hr
      rcases List.mem_cons.1 hr with rfl | hr
      · have := h1 _ (List.mem_cons_self ..)
        unfold targetOk at this ⊢
        rw [(setDuration_frame hpq).2.1]
        exact this
      · exact ih (fun p hp => h1 p (List.mem_cons_of_mem _ hp)) r hr
  · clear h h1
    induction h2 with
    | nil => exact .nil
    | cons hpq _ ih => exact .cons (setDuration_idem hc hpq) ih

/-- Exactly the options with positive distances, positive durations and convertible units pass. -/
theorem setDuration_total (conv : String → String → Option ℚ) (p : PInfo) :
    (∃ q, setDuration conv p = .ok q) ↔ ∀ u d un, p.userOptions = some u → u.timeDuration = some (some d, un) →
      0 < d ∧ ∀ t, p.guesses.bind (·.time) = some t → (conv un t.2).isSome := by
  constructor
  · rintro ⟨q, hq⟩ u d un hu hd
    constructor
    · unfold setDuration at hq
      simp only [hu, hd] at hq
      by_contra hn
      rw [if_pos (not_lt.1 hn)] at hq
      cases hq
    · intro t ht
      obtain ⟨g, s, d', un', _, _, _, h1, _⟩ := setDuration_guess hq hu hd
      obtain ⟨_, h3, f, hf, _⟩ := h1 t ht
      rw [← h3, hf]; rfl
  · intro h
    unfold setDuration
    split
    · exact ⟨_, rfl⟩
    · rename_i u hu
      split
      · exact ⟨_, rfl⟩
      · exact ⟨_, rfl⟩
      · rename_i d un hd
        obtain ⟨h1, h2⟩ := h u d un hu hd
        rw [if_neg (not_le.2 h1)]
        simp only
        split
        · exact ⟨_, rfl⟩
        · rename_i s x gu hg
          have : p.guesses.bind (·.time) = some ((s, x), gu) := by
            cases hp : p.guesses with
            | none => simp [hp] at hg
            | some g => simpa [hp] using hg
          obtain ⟨f, hf⟩ := Option.isSome_iff_exists.1 (h2 _ this)
          simp only at hf
          rw [hf]
          exact ⟨_, rfl⟩

/-- A climb of fixed duration with a guess in minutes. -/
example : preprocess (fun u v => if u = v then some 1 else if u = "s" ∧ v = "min" then some (1 / 60) else none)
    [⟨"climb", some ⟨none, some (some 1200, "s")⟩, some ⟨some ((some 0, none), "min"), [("mass", 1)]⟩⟩,
      ⟨"cruise", some ⟨some (some 500, "nmi"), none⟩, none⟩] =
    .ok [⟨"climb", some ⟨none, some (some 1200, "s")⟩, some ⟨some ((some 0, some 20), "min"), [("mass", 1)]⟩⟩,
      ⟨"cruise", some ⟨some (some 500, "nmi"), none⟩, none⟩] := by decide +kernel

/-- The intended `ValueError` for a duration that is not positive (aviary/core/aviary_group.py:431-436) never appears: making its
text raises `TypeError`. -/
theorem duration_error_violated (conv : String → String → Option ℚ) (p : PInfo) {u : UserOpts} (hu : p.userOptions = some u)
    {d : ℚ} {un : String} (hd : u.timeDuration = some (some d, un)) (h : d ≤ 0) :
    setDuration conv p = .error .typeError := by
  unfold setDuration
  simp [hu, hd, h]

example : setDuration (fun _ _ => none) ⟨"cruise", some ⟨none, some (some (-5), "s")⟩, none⟩ = .error .typeError := by
  decide +kernel

/-! ## Tabular aerodynamics -/

theorem isIn_iff (a b : List Char) : isIn a b = true ↔ a <:+: b := by
  induction b with
  | nil => simp [isIn]
  | cons c b ih =>
    simp only [isIn, Bool.or_eq_true, List.isPrefixOf_iff_prefix, ih]
    exact List.infix_cons_iff.symm

theorem tabularLoop_append (t : Bool) (l m : List (Option String)) :
    tabularLoop t (l ++ m) = tabularLoop (tabularLoop t l) m := by
  induction l generalizing t with
  | nil => rfl
  | cons x l ih => cases x <;> simp [tabularLoop, ih]

theorem tabularLoop_some {l : List (Option String)} (h : ∀ m ∈ l, m ≠ none) (t : Bool) :
    tabularLoop t l = (t || l.any fun m => m.any hasTabular) := by
  induction l generalizing t with
  | nil => simp [tabularLoop]
  | cons x l ih =>
    cases x with
    | none => exact absurd rfl (h none (by simp))
    | some m =>
      simp only [tabularLoop, List.any_cons, Option.any_some]
      rw [ih fun m hm => h m (by simp [hm])]
      cases hasTabular m <;> cases t <;> simp

/-- The flag is set exactly if some phase asks for a tabular method and no later phase leaves the method out. -/
theorem tabular_iff (ms : List (Option String)) : tabular ms = true ↔
    ∃ l m r, ms = l ++ some m :: r ∧ hasTabular m = true ∧ ∀ x ∈ r, x ≠ none := by
  have key : ∀ (ms : List (Option String)) (t : Bool), tabularLoop t ms = true ↔
      (t = true ∧ ∀ x ∈ ms, x ≠ none) ∨
      ∃ l m r, ms = l ++ some m :: r ∧ hasTabular m = true ∧ ∀ x ∈ r, x ≠ none := by
    intro ms
    induction ms with
    | nil => intro t; simp [tabularLoop]
    | cons y ms ih =>
      intro t
      cases y with
      | none =>
        simp only [tabularLoop, ih, Bool.false_eq_true, false_and, false_or]
        constructor
        · rintro ⟨l, m, r, rfl, h⟩
          exact .inr ⟨none :: l, m, r, rfl, h⟩
        · rintro (⟨_, h⟩ | ⟨l, m, r, h, h'⟩)
          · exact absurd rfl (h none (by simp))
          · cases l with
            | nil => simp at h
            | cons z l =>
              simp only [List.cons_append, List.cons.injEq] at h
              exact ⟨l, m, r, h.2, h'⟩
      | some n =>
        simp only [tabularLoop, ih]
        constructor
        · rintro (⟨h1, h2⟩ | ⟨l, m, r, rfl, h⟩)
          · by_cases hn : hasTabular n = true
            · exact .inr ⟨[], n, ms, rfl, hn, h2⟩
            · rw [if_neg hn] at h1
              exact .inl ⟨h1, by simpa using h2⟩
          · exact .inr ⟨some n :: l, m, r, rfl, h⟩
        · rintro (⟨h1, h2⟩ | ⟨l, m, r, h, h'⟩)
          · left
            refine ⟨by split <;> simp [h1], fun x hx => h2 x (by simp [hx])⟩
          · cases l with
            | nil =>
              simp only [List.nil_append, List.cons.injEq, Option.some.injEq] at h
              obtain ⟨rfl, rfl⟩ := h
              exact .inl ⟨by simp [h'.1], h'.2⟩
            | cons z l =>
              simp only [List.cons_append, List.cons.injEq] at h
              exact .inr ⟨l, m, r, h.2, h'⟩
  rw [tabular, key]
  simp

/-- "If all phases ask for tabular aero, we can skip pre-mission" (aviary/core/aviary_group.py:484): when all do, the flag is set. -/
theorem tabular_all_partial (ms : List (Option String)) (hn : ms ≠ []) (h : ∀ m ∈ ms, ∃ s, m = some s ∧ hasTabular s = true) :
    tabular ms = true := by
  obtain ⟨m, l, rfl⟩ := List.exists_cons_of_ne_nil hn
  obtain ⟨s, rfl, hs⟩ := h m (by simp)
  refine (tabular_iff _).2 ⟨[], s, l, rfl, hs, fun x hx hx' => ?_⟩
  obtain ⟨s', hs', _⟩ := h x (by simp [hx])
  rw [hx'] at hs'
  cases hs'

/-- The flag is also set when only one of the phases asks for it: the others then miss the pre-mission results. -/
theorem tabular_only_if_all_violated : ¬∀ ms, tabular ms = true → ∀ m ∈ ms, ∃ s, m = some s ∧ hasTabular s = true := by
  intro h
  obtain ⟨s, hs, ht⟩ := h [some "tabular", some "computed"] (by decide +kernel) (some "computed") (by simp)
  cases hs
  revert ht
  decide +kernel

/-- The order of the phases matters. -/
theorem tabular_order_violated : ∃ a b, tabular [a, b] ≠ tabular [b, a] := ⟨some "tabular", none, by decide +kernel⟩

/-- A single geometry method is used exactly if aerodynamics and mass agree on it. -/
theorem geomOrigin_spec (a m : Option Code) (c : Code) : geomOrigin a m = [c] ↔ a = some c ∧ m = some c := by
  rcases a with _ | (_ | _) <;> rcases m with _ | (_ | _) <;> cases c <;> decide

/-! ## C77 Time options -/

/-- A fixed start and a fixed duration are marked as such, and nothing else is. -/
theorem energyTime_fixed (idx ranks : ℕ) (t : TimeIn) :
    ((energyTime idx ranks t).fixInitial = true ↔ t.initial ≠ none) ∧
    ((energyTime idx ranks t).fixDuration = true ↔ t.duration ≠ none) := by
  simp [energyTime, Option.isSome_iff_ne_none]

/-- Bounds for the duration are passed on unchanged exactly if the duration is free. -/
theorem energyTime_durationBounds (idx ranks : ℕ) (t : TimeIn) :
    (energyTime idx ranks t).durationBounds = if t.duration = none then some t.durationBounds else none := by
  cases h : t.duration <;> simp [energyTime, h]

/-- Bounds for the start are passed on exactly if the start is free and the phase is the first, or the run is on several
ranks. -/
theorem energyTime_initialBounds (idx ranks : ℕ) (t : TimeIn) :
    (energyTime idx ranks t).initialBounds =
      if (t.initial ≠ none ∨ 0 < idx) ∧ ranks = 1 then none else some t.initialBounds := by
  cases h : t.initial <;> by_cases hi : 0 < idx <;> by_cases hr : ranks = 1 <;> simp [energyTime, h, hi, hr]

/-- A start time that is neither fixed nor connected should keep its bounds. On one rank this fails for a follow-on phase
whose time the user links by a constraint. -/
theorem initial_bounds_dropped_violated : ∃ (t : TimeIn) (p : LinkPhases.Phase),
    t.initial = none ∧ LinkPhases.wantConnect true p "time" = false ∧ t.initialBounds = (some 100, some 200) ∧
    (energyTime 1 1 t).initialBounds = none := by
  refine ⟨⟨none, none, (some 100, some 200), (none, none), some 1, some 1⟩,
    ⟨"cruise", ["time"], ⟨fun k => if k = "time_initial_direct_link" then some false else none, fun _ => (none, none)⟩,
      "time", ["mass"]⟩, rfl, by decide +kernel, rfl, by decide +kernel⟩

/-- The reference value of the start: the user's if it is not 1, else the upper bound, else 600 s. -/
theorem energyInitialRef_spec (t : TimeIn) :
    (t.initialRef ≠ some 1 → energyInitialRef t = t.initialRef) ∧
    (t.initialRef = some 1 → ∀ b, t.initialBounds.2 = some b → b ≠ 0 → energyInitialRef t = some b) ∧
    (t.initialRef = some 1 → (t.initialBounds.2 = none ∨ t.initialBounds.2 = some 0) → energyInitialRef t = some 600) := by
  refine ⟨fun h => if_neg h, fun h b hb hb0 => ?_, fun h hb => ?_⟩
  · simp [energyInitialRef, h, hb, truthy, hb0]
  · rcases hb with hb | hb <;> simp [energyInitialRef, h, hb, truthy]

/-- The reference value of the duration: the user's if it is not 1, else the middle of the bounds if there are two. -/
theorem energyDurationRef_spec (t : TimeIn) :
    (t.durationRef ≠ some 1 → energyDurationRef t = t.durationRef) ∧
    (t.durationRef = some 1 → t.durationBounds = (none, none) → energyDurationRef t = some 1) ∧
    (t.durationRef = some 1 → ∀ a b, t.durationBounds = (some a, some b) → energyDurationRef t = some ((a + b) / 2)) := by
  refine ⟨fun h => if_neg h, fun h hb => ?_, fun h a b hb => ?_⟩
  · simp [energyDurationRef, h, hb]
  · simp [energyDurationRef, h, hb]

/-- With two bounds the reference lies between them. -/
theorem energyDurationRef_between (t : TimeIn) (h : t.durationRef = some 1) {a b : ℚ}
    (hb : t.durationBounds = (some a, some b)) (hab : a ≤ b) :
    ∃ r, energyDurationRef t = some r ∧ a ≤ r ∧ r ≤ b :=
  ⟨_, (energyDurationRef_spec t).2.2 h a b hb, by linarith, by linarith⟩

/-- The reference is positive when the bounds are positive. -/
theorem energyDurationRef_pos_partial (t : TimeIn) (h : t.durationRef = some 1)
    (hlo : ∀ a, t.durationBounds.1 = some a → 0 < a) (hhi : ∀ b, t.durationBounds.2 = some b → 0 < b) :
    ∃ r, energyDurationRef t = some r ∧ 0 < r := by
  rcases hb : t.durationBounds with ⟨_ | a, _ | b⟩
  · exact ⟨1, by simp [energyDurationRef, h, hb], by norm_num⟩
  · have := hhi b (by rw [hb])
    exact ⟨b / 2, by simp [energyDurationRef, h, hb], by linarith⟩
  · have := hlo a (by rw [hb])
    exact ⟨a / 2, by simp [energyDurationRef, h, hb], by linarith⟩
  · have := hlo a (by rw [hb])
    have := hhi b (by rw [hb])
    exact ⟨(a + b) / 2, by simp [energyDurationRef, h, hb], by linarith⟩

/-- A lower bound of zero alone gives the reference value zero, by which the optimizer's value is divided. -/
theorem energyDurationRef_zero_violated : ∃ t : TimeIn, t.durationRef = some 1 ∧ t.durationBounds = (some 0, none) ∧
    energyDurationRef t = some 0 :=
  ⟨⟨none, none, (none, none), (some 0, none), some 1, some 1⟩, rfl, rfl, by decide +kernel⟩

/-- A reference of one second asked for by the user is not honoured. -/
theorem energyInitialRef_user_violated : ¬∀ (t : TimeIn) (r : ℚ), t.initialRef = some r → energyInitialRef t = some r := by
  intro h
  have := h ⟨none, none, (none, none), (none, none), some 1, some 1⟩ 1 rfl
  revert this
  decide +kernel

/-- 2DOF: start bounds are passed on exactly for a first phase with free start. -/
theorem twoDofTime_initialBounds {idx ranks : ℕ} {t : TimeIn} {o : TimeOut} (h : twoDofTime idx ranks t = .ok o) :
    o.initialBounds = if t.initial ≠ none ∨ 0 < idx then none else some t.initialBounds := by
  unfold twoDofTime at h
  split at h
  · cases h
  · cases h
    cases hi : t.initial <;> by_cases hx : 0 < idx <;> simp [hx]

/-- 2DOF: duration bounds always are, and the reference of the user is used if there is one. -/
theorem twoDofTime_duration {idx ranks : ℕ} {t : TimeIn} {o : TimeOut} (h : twoDofTime idx ranks t = .ok o) :
    o.durationBounds = some t.durationBounds ∧ (∀ r, t.durationRef = some r → o.durationRef = some (some r)) := by
  unfold twoDofTime at h
  split at h
  · cases h
  · rename_i d hd
    cases h
    refine ⟨rfl, fun r hr => ?_⟩
    simp only [twoDofDurationRef, hr] at hd
    cases hd
    rfl

/-- 2DOF raises exactly if the reference is missing and one of the bounds too. -/
theorem twoDofTime_total (idx ranks : ℕ) (t : TimeIn) : (∃ o, twoDofTime idx ranks t = .ok o) ↔
    t.durationRef ≠ none ∨ (t.durationBounds.1 ≠ none ∧ t.durationBounds.2 ≠ none) := by
  unfold twoDofTime twoDofDurationRef
  rcases t.durationRef with _ | r <;> rcases t.durationBounds with ⟨_ | a, _ | b⟩ <;> simp

/-- 2DOF: the reference of the start. -/
theorem twoDofTime_initialRef {idx ranks : ℕ} {t : TimeIn} {o : TimeOut} (h : twoDofTime idx ranks t = .ok o) :
    (t.initial = none → idx = 0 → o.initialRef = some t.initialRef) ∧
    ((t.initial ≠ none ∨ 0 < idx) → ranks ≤ 1 → o.initialRef = some none) ∧
    ((t.initial ≠ none ∨ 0 < idx) → 1 < ranks → ∀ a b, t.initialBounds = (some a, some b) → b ≠ 0 →
      o.initialRef = some (some b)) := by
  unfold twoDofTime at h
  split at h
  · cases h
  · cases h
    refine ⟨fun h1 h2 => by simp [h1, h2], fun h1 h2 => ?_, fun h1 h2 a b hb hb0 => ?_⟩
    · have : ¬ranks > 1 := by omega
      rcases h1 with h1 | h1 <;> simp_all [Option.isSome_iff_ne_none]
    · rcases h1 with h1 | h1 <;> simp_all [Option.isSome_iff_ne_none, boundRef]

/-- 2DOF: a reference that replaces that of the user is never zero. -/
theorem twoDofTime_initialRef_ne {idx ranks : ℕ} {t : TimeIn} {o : TimeOut} (h : twoDofTime idx ranks t = .ok o)
    (h1 : t.initial ≠ none ∨ 0 < idx) (h2 : 1 < ranks) : ∃ r, o.initialRef = some (some r) ∧ r ≠ 0 := by
  unfold twoDofTime at h
  split at h
  · cases h
  · cases h
    have hj : (t.initial.isSome || decide (idx > 0)) = true := by
      rcases h1 with h1 | h1
      · simp [Option.isSome_iff_ne_none.2 h1]
      · simp [h1]
    refine ⟨boundRef t, by simp only [hj, if_true, if_pos h2], ?_⟩
    unfold boundRef
    split
    · split_ifs with hu
      · exact hu
      · norm_num
    · norm_num

/-- On several ranks the phases are not connected, the start of a follow-on phase is free, and still 2DOF drops its
bounds (the energy method keeps them). -/
theorem twoDof_parallel_bounds_violated : ∃ (t : TimeIn) (o : TimeOut), t.initial = none ∧
    t.initialBounds = (some 100, some 200) ∧ twoDofTime 1 2 t = .ok o ∧ o.initialBounds = none ∧
    (energyTime 1 2 t).initialBounds = some t.initialBounds :=
  ⟨⟨none, none, (some 100, some 200), (none, none), some 1, some 1⟩, _, rfl, rfl, rfl, rfl, rfl⟩

/-! ## Guess for the time -/

/-- Fixed values are their own guess. -/
theorem timeGuess_fixed {t : TimeIn} {i d : ℚ} (hi : t.initial = some i) (hd : t.duration = some d) :
    timeGuess none t = .ok (some i, some d) := by simp [timeGuess, hi, hd]

/-- "if time not in initial guesses, use the midpoints of any declared bounds" (aviary/mission/energy_state_problem_configurator.py:
521): the guess is the lower bound. -/
theorem timeGuess_midpoint_violated {t : TimeIn} {a b c d : ℚ} (hi : t.initial = none) (hd : t.duration = none)
    (hib : t.initialBounds = (some a, some b)) (hdb : t.durationBounds = (some c, some d)) (hcd : c < d) :
    timeGuess none t = .ok (some a, some c) ∧ c ≠ (c + d) / 2 := by
  refine ⟨by simp [timeGuess, hi, hd, hib, hdb, npMean], ?_⟩
  intro h
  linarith

/-- Without a lower bound the guess raises. -/
theorem timeGuess_none_violated {t : TimeIn} (hi : t.initial = none) (hib : t.initialBounds.1 = none) :
    timeGuess none t = .error .typeError := by simp [timeGuess, hi, hib, npMean]

example : timeGuess none ⟨none, none, (some 20, some 60), (some 10, some 30), some 1, some 1⟩ = .ok (some 20, some 10) := by
  decide +kernel

/-! ## Boundary check -/

/-- The issues are exactly the boundaries where both values are given and differ. -/
theorem issues_iff (ps : List Ends) (x : Issue) : x ∈ issues ps ↔ ∃ a l r b, ps = a ++ l :: r :: b ∧ x.1 = l.name ∧
    x.2.1 = r.name ∧ x.2.2 ∈ stems ∧ (r.initial x.2.2).1 ≠ none ∧ (l.final x.2.2).1 ≠ none ∧
    r.initial x.2.2 ≠ l.final x.2.2 := by
  have hb : ∀ l r, x ∈ boundaryIssues l r ↔ x.1 = l.name ∧ x.2.1 = r.name ∧ x.2.2 ∈ stems ∧
      (r.initial x.2.2).1 ≠ none ∧ (l.final x.2.2).1 ≠ none ∧ r.initial x.2.2 ≠ l.final x.2.2 := by
    intro l r
    obtain ⟨a, b, c⟩ := x
    simp only [boundaryIssues, List.mem_map, List.mem_filter, decide_eq_true_eq, Prod.mk.injEq]
    constructor
    · rintro ⟨s, ⟨h1, h2⟩, rfl, rfl, rfl⟩; exact ⟨rfl, rfl, h1, h2⟩
    · rintro ⟨rfl, rfl, h1, h2⟩; exact ⟨c, ⟨h1, h2⟩, rfl, rfl, rfl⟩
  induction ps with
  | nil => simp [issues]
  | cons p ps ih =>
    cases ps with
    | nil =>
      simp only [issues, List.not_mem_nil, false_iff]
      rintro ⟨a, l, r, b, h, _⟩
      have := congrArg List.length h
      simp at this
      omega
    | cons q ps =>
      simp only [issues, List.mem_append, hb, ih]
      constructor
      · rintro (h | ⟨a, l, r, b, h, h'⟩)
        · exact ⟨[], p, q, ps, rfl, h⟩
        · exact ⟨p :: a, l, r, b, by rw [h]; rfl, h'⟩
      · rintro ⟨a, l, r, b, h, h'⟩
        cases a with
        | nil =>
          simp only [List.nil_append, List.cons.injEq] at h
          obtain ⟨rfl, rfl, rfl⟩ := h
          exact .inl h'
        | cons c a =>
          simp only [List.cons_append, List.cons.injEq] at h
          exact .inr ⟨a, l, r, b, h.2, h'⟩

/-- When the units agree at a boundary, it is reported exactly if the given values differ. -/
theorem issues_value_partial {l r : Ends} {s : String} (hs : s ∈ stems) (hu : (r.initial s).2 = (l.final s).2) {a b : ℚ}
    (ha : (l.final s).1 = some a) (hb : (r.initial s).1 = some b) :
    (l.name, r.name, s) ∈ issues [l, r] ↔ a ≠ b := by
  have hne : r.initial s ≠ l.final s ↔ a ≠ b := by
    rw [Ne, Prod.ext_iff, hb, ha]
    simp [hu, eq_comm]
  simp only [issues, List.append_nil, boundaryIssues, List.mem_map, List.mem_filter, decide_eq_true_eq, Prod.mk.injEq, true_and]
  constructor
  · rintro ⟨t, ⟨_, _, _, h⟩, rfl⟩; exact hne.1 h
  · intro h; exact ⟨s, ⟨hs, by simp [hb], by simp [ha], hne.2 h⟩, rfl⟩

/-- The same altitude in different units is reported as a mismatch. -/
theorem issues_units_violated : ∃ l r : Ends, r.initial "altitude" = (some 3048, "m") ∧
    l.final "altitude" = (some 10000, "ft") ∧ ("l", "r", "altitude") ∈ issues [l, r] :=
  ⟨⟨"l", fun _ => (none, ""), fun s => if s = "altitude" then (some 10000, "ft") else (none, "")⟩,
    ⟨"r", fun s => if s = "altitude" then (some 3048, "m") else (none, ""), fun _ => (none, "")⟩, rfl, rfl, by decide +kernel⟩

/-- A mismatch is never an error; at the lowest verbosity it is not even printed. -/
theorem printed_iff (v : ℕ) (ps : List Ends) : printed v ps = none ↔ v = 0 ∨ issues ps = [] := by
  unfold printed
  split
  · rename_i h
    simp only [reduceCtorEq, false_iff, not_or]
    exact ⟨by omega, fun h0 => by simp [h0] at h⟩
  · rename_i h
    simp only [true_iff]
    by_cases hv : v = 0
    · exact .inl hv
    · right
      by_contra hn
      exact h ⟨List.length_pos_iff.2 hn, Nat.pos_of_ne_zero hv⟩

end Verif.PhaseInfo
