import Verif.Model.Configurators
import Verif.Lemmas.Dict
import Verif.Props.AviaryValues

/-!
# C122: loading a problem and the problem configurators
-/

namespace Verif.Configure

/-! ## Verbosity and external subsystems -/

/-- A given verbosity is used when it is a level, else it is an error; without one the level of the group stays. -/
theorem overrideVerbosity_spec (own : Option Verb) :
    overrideVerbosity own none = .ok own ∧ (∀ v : Verb, overrideVerbosity own (some v.toInt) = .ok (some v)) ∧
    ∀ i : ℤ, (i < 0 ∨ 3 < i) → overrideVerbosity own (some i) = .error .valueError := by
  refine ⟨rfl, fun v => by cases v <;> rfl, fun i hi => ?_⟩
  have : Verb.ofInt i = .error .valueError := by
    unfold Verb.ofInt
    split <;> first | rfl | omega
  simp only [overrideVerbosity, this, Except.map]

/-- Neither an engine model nor a builder. -/
def Ext.improper : Ext → Bool
  | .other _ _ => true
  | _ => false

/-- An engine model. -/
def Ext.isEngine : Ext → Bool
  | .engine _ => true
  | _ => false

/-- With at least brief messages, exactly the proper ones are loaded, in order, engines apart from the others, each with its metadata;
for each of the rest there is a warning. -/
theorem load_loud (v : Verb) (hv : v ≠ .quiet) (l : List Ext) (s : Loaded) :
    loadExternals (some v) l s =
      (⟨s.engines ++ ((l.filter (fun e => e.isEngine)).map (·.name)),
        s.externals ++ ((l.filter (fun e => !e.isEngine && !e.improper)).map (·.name)),
        s.metas ++ ((l.filter (fun e => !e.improper)).map (·.name)), s.warned + (l.filter (·.improper)).length⟩, none) := by
  induction l generalizing s with
  | nil => simp [loadExternals]
  | cons e l ih =>
    cases e with
    | engine n => simp [loadExternals, loadStep, loadOne, ih, Ext.improper, Ext.isEngine, Ext.name]
    | builder n => simp [loadExternals, loadStep, loadOne, ih, Ext.improper, Ext.isEngine, Ext.name]
    | other n h =>
      cases v
      · exact (hv rfl).elim
      all_goals
        simp only [loadExternals, loadStep, ih]
        simp [Ext.improper, Ext.isEngine]
        omega

/-- Proper subsystems are loaded whatever the verbosity, even before it is known. -/
theorem load_proper (v : Option Verb) (l : List Ext) (hl : ∀ e ∈ l, e.improper = false) (s : Loaded) :
    loadExternals v l s =
      (⟨s.engines ++ ((l.filter (fun e => e.isEngine)).map (·.name)), s.externals ++ ((l.filter (fun e => !e.isEngine)).map (·.name)),
        s.metas ++ l.map (·.name), s.warned⟩, none) := by
  induction l generalizing s with
  | nil => simp [loadExternals]
  | cons e l ih =>
    have ih' := ih (fun e he => hl e (List.mem_cons_of_mem _ he))
    cases e with
    | engine n => simp [loadExternals, loadStep, loadOne, ih', Ext.isEngine, Ext.name]
    | builder n => simp [loadExternals, loadStep, loadOne, ih', Ext.isEngine, Ext.name]
    | other n h => cases hl _ (List.mem_cons_self ..)

/-- With quiet messages an object that is no builder is loaded, although the message of the louder levels says that it is not: it is in
the list of subsystems, and without metadata an exception follows.  Before the verbosity is known it is an exception too. -/
theorem load_quiet_violated (n : String) (s : Loaded) :
    (loadExternals (some .quiet) [.other n true] s).1.externals = s.externals ++ [n] ∧
    (loadExternals (some .quiet) [.other n true] s).2 = none ∧
    (loadExternals (some .quiet) [.other n false] s).1.externals = s.externals ++ [n] ∧
    (loadExternals (some .quiet) [.other n false] s).2 = some .attributeError ∧
    ∀ h, (loadExternals none [.other n h] s).2 = some .attributeError :=
  ⟨rfl, rfl, rfl, rfl, fun _ => rfl⟩

/-! ## Configurator and phase information -/

/-- A configurator is found unless the equations are custom and none is given; a given one is only used for custom equations. -/
theorem choose_spec (given : Option String) (e : Eom) :
    ((∃ c, choose given e = .ok c) ↔ ¬ (e = .custom ∧ given = none)) ∧
    (∀ n, choose given e = .ok (.user n) ↔ e = .custom ∧ given = some n) := by
  cases e <;> cases given <;> simp [choose]

/-- The phases keep their order and their settings; the two special entries are apart, empty when missing. -/
theorem splitInfo_spec {α : Type} (empty : α) (info : Dict String α) :
    (splitInfo empty info).1.Sublist info ∧
    (∀ k, k ≠ "pre_mission" → k ≠ "post_mission" → Dict.get? (splitInfo empty info).1 k = info.get? k) ∧
    Dict.get? (splitInfo empty info).1 "pre_mission" = none ∧ Dict.get? (splitInfo empty info).1 "post_mission" = none ∧
    (∀ x, info.get? "pre_mission" = some x → (splitInfo empty info).2.1 = x) ∧
    (∀ x, info.get? "post_mission" = some x → (splitInfo empty info).2.2 = x) ∧
    (info.get? "pre_mission" = none → (splitInfo empty info).2.1 = empty) ∧
    (info.get? "post_mission" = none → (splitInfo empty info).2.2 = empty) := by
  have gen : ∀ (d : Dict String α) (k : String), Dict.get? (d.filter (fun p => p.1 ≠ "pre_mission" ∧ p.1 ≠ "post_mission")) k =
      if k ≠ "pre_mission" ∧ k ≠ "post_mission" then d.get? k else none := by
    intro d k
    induction d with
    | nil => simp [Dict.get?]
    | cons p d ih =>
      by_cases hp : p.1 ≠ "pre_mission" ∧ p.1 ≠ "post_mission"
      · rw [List.filter_cons_of_pos (by simpa using hp)]
        by_cases hk : p.1 = k
        · subst hk; simp [Dict.get?, hp.1, hp.2]
        · obtain ⟨a, b⟩ := p
          simp only [Dict.get?, if_neg hk]
          exact ih
      · rw [List.filter_cons_of_neg (by simpa using hp), ih]
        by_cases hk : k ≠ "pre_mission" ∧ k ≠ "post_mission"
        · have : p.1 ≠ k := fun e => hp (e ▸ hk)
          obtain ⟨a, b⟩ := p
          rw [if_pos hk, if_pos hk]
          simp only [Dict.get?, if_neg this]
        · rw [if_neg hk, if_neg hk]
  refine ⟨List.filter_sublist, fun k h1 h2 => ?_, ?_, ?_, ?_, ?_, ?_, ?_⟩
  · exact (gen info k).trans (if_pos ⟨h1, h2⟩)
  · exact (gen info _).trans (if_neg (by simp))
  · exact (gen info _).trans (if_neg (by simp))
  all_goals
    intros
    simp_all [splitInfo]

/-- The modifier is accepted exactly with the three names, in any order, and annotations that are missing or right. -/
theorem validateModifier_iff (params : Dict String Ann) :
    validateModifier params = .ok () ↔
      (∀ k, k ∈ params.keys ↔ k = "phase_info" ∨ k = "post_mission_info" ∨ k = "aviary_inputs") ∧
      (params.get? "phase_info" = some .dict ∨ params.get? "phase_info" = some .empty) ∧
      (params.get? "post_mission_info" = some .dict ∨ params.get? "post_mission_info" = some .empty) ∧
      (params.get? "aviary_inputs" = some .aviaryValues ∨ params.get? "aviary_inputs" = some .empty) := by
  have hset : (["phase_info", "post_mission_info", "aviary_inputs"].all (fun k => params.has k) &&
      params.keys.all (fun k => decide (k ∈ ["phase_info", "post_mission_info", "aviary_inputs"]))) = true ↔
      ∀ k, k ∈ params.keys ↔ k = "phase_info" ∨ k = "post_mission_info" ∨ k = "aviary_inputs" := by
    simp only [Bool.and_eq_true, List.all_eq_true, Dict.has, Dict.get?_isSome_iff, decide_eq_true_eq, List.mem_cons, List.not_mem_nil,
      or_false]
    exact ⟨fun ⟨a, b⟩ k => ⟨b k, a k⟩, fun h => ⟨fun k => (h k).2, fun k => (h k).1⟩⟩
  rw [← hset]
  unfold validateModifier
  dsimp only
  generalize (["phase_info", "post_mission_info", "aviary_inputs"].all (fun k => params.has k) &&
      params.keys.all (fun k => decide (k ∈ ["phase_info", "post_mission_info", "aviary_inputs"]))) = b
  cases b
  · simp
  · simp only [Bool.true_eq_false, if_false, true_and]
    by_cases h1 : params.get? "phase_info" = some .dict ∨ params.get? "phase_info" = some .empty
    · rw [if_neg (by tauto)]
      by_cases h2 : params.get? "post_mission_info" = some .dict ∨ params.get? "post_mission_info" = some .empty
      · rw [if_neg (by tauto)]
        by_cases h3 : params.get? "aviary_inputs" = some .aviaryValues ∨ params.get? "aviary_inputs" = some .empty
        · rw [if_neg (by tauto)]; exact ⟨fun _ => ⟨h1, h2, h3⟩, fun _ => rfl⟩
        · rw [if_pos (by tauto)]; exact ⟨fun h => (nomatch h), fun h => (h3 h.2.2).elim⟩
      · rw [if_pos (by tauto)]; exact ⟨fun h => (nomatch h), fun h => (h2 h.2.1).elim⟩
    · rw [if_pos (by tauto)]; exact ⟨fun h => (nomatch h), fun h => (h1 h.1).elim⟩

/-- A function with right annotations in a module with postponed annotations is refused. -/
theorem postponed_violated : validateModifier [("phase_info", .text), ("post_mission_info", .text), ("aviary_inputs", .text)] =
    .error .typeError := by decide

example : validateModifier [("aviary_inputs", .aviaryValues), ("phase_info", .dict), ("post_mission_info", .empty)] = .ok () := by decide

/-! ## Guesses of the subsystems -/

/-- A state or control is set exactly for the guesses whose kind names one, with the processed value, for every subsystem with its own
options. -/
theorem subsystemGuesses_spec {α β : Type} (process : α → String → α) (empty : β) (opts : Dict String β)
    (subs : List (String × (β → List (Guess α)))) (k : String) (v : α) (u : Option String) :
    (SetCall.state k v u ∈ subsystemGuesses process empty opts subs ↔
      ∃ s ∈ subs, ∃ g ∈ s.2 ((opts.get? s.1).getD empty), g.key = k ∧ g.units = u ∧ process g.val k = v ∧ within "state" g.type = true) ∧
    (SetCall.control k v u ∈ subsystemGuesses process empty opts subs ↔
      ∃ s ∈ subs, ∃ g ∈ s.2 ((opts.get? s.1).getD empty), g.key = k ∧ g.units = u ∧ process g.val k = v ∧
        within "control" g.type = true ∧ within "state" g.type = false) := by
  simp only [subsystemGuesses, List.mem_flatMap, List.mem_filterMap]
  constructor
  · refine exists_congr fun s => and_congr_right fun _ => exists_congr fun g => and_congr_right fun _ => ?_
    unfold guessCall
    split_ifs with h1 h2
    · simp only [Option.some.injEq, SetCall.state.injEq, h1, and_true]
      constructor
      · rintro ⟨rfl, rfl, rfl⟩; exact ⟨rfl, rfl, rfl⟩
      · rintro ⟨rfl, rfl, rfl⟩; exact ⟨rfl, rfl, rfl⟩
    · simp [h1]
    · simp [h1]
  · refine exists_congr fun s => and_congr_right fun _ => exists_congr fun g => and_congr_right fun _ => ?_
    unfold guessCall
    split_ifs with h1 h2
    · simp [h1]
    · simp only [Option.some.injEq, SetCall.control.injEq, h2, Bool.not_eq_true] at h1 ⊢
      simp only [h1, and_true]
      constructor
      · rintro ⟨rfl, rfl, rfl⟩; exact ⟨rfl, rfl, rfl⟩
      · rintro ⟨rfl, rfl, rfl⟩; exact ⟨rfl, rfl, rfl⟩
    · simp [h2]

/-- A guess of any other kind is dropped without a message. -/
theorem guess_dropped_violated {α : Type} (process : α → String → α) (v : α) :
    guessCall process ⟨"x", v, none, "parameter"⟩ = none := by
  have h1 : within "state" "parameter" = false := by decide +kernel
  have h2 : within "control" "parameter" = false := by decide +kernel
  simp [guessCall, h1, h2]

/-- The subsystems after the mission get the options given for those before it. -/
theorem post_options_violated {β : Type} (empty a b : β) :
    postMissionOptions empty [("subsystem_options", [("mass", a)])] [("subsystem_options", [("mass", b)])] "mass" = a ∧
    postMissionOptions empty [] [("subsystem_options", [("mass", b)])] "mass" = empty := ⟨rfl, rfl⟩

/-- Settings after the mission never matter for them. -/
theorem post_options_ignored {β : Type} (empty : β) (pre p q : Dict String (Dict String β)) (n : String) :
    postMissionOptions empty pre p n = postMissionOptions empty pre q n := rfl

/-! ## Builders -/

/-- Each kind of phase has its own builder; only the Breguet range looks at the name. -/
theorem twoDofBuilder_spec (n : String) (t : Option PhaseType) :
    (twoDofBuilder n t = .flight ↔ t = none ∨ t = some .default) ∧ (twoDofBuilder n t = .accel ↔ t = some .accel) ∧
    (twoDofBuilder n t = .takeoff ↔ t = some .twoDofTakeoff) ∧ (twoDofBuilder n t = .simpleCruise ↔ t = some .simpleCruise) ∧
    (twoDofBuilder n t = .electricCruise ↔ t = some .breguetRange ∧ ∃ a b : String, n = a ++ "electric_cruise" ++ b) ∧
    (twoDofBuilder n t = .breguetCruise ↔ t = some .breguetRange ∧ ¬ ∃ a b : String, n = a ++ "electric_cruise" ++ b) := by
  have hw : within "electric_cruise" n = true ↔ ∃ a b : String, n = a ++ "electric_cruise" ++ b := by
    simp only [within, decide_eq_true_eq]
    constructor
    · rintro ⟨a, b, h⟩
      refine ⟨String.ofList a, String.ofList b, ?_⟩
      apply String.toList_inj.1
      rw [String.toList_append, String.toList_append, String.toList_ofList, String.toList_ofList, ← h]
      rw [String.toList_ofList, String.toList_ofList]
    · rintro ⟨a, b, rfl⟩
      rw [String.toList_append, String.toList_append]
      exact ⟨a.toList, b.toList, rfl⟩
  rw [← hw]
  cases t with
  | none => simp [twoDofBuilder]
  | some t =>
    cases t <;> simp [twoDofBuilder]
    cases within "electric_cruise" n <;> simp

theorem solvedBuilder_spec (g r : Option Bool) :
    (solvedBuilder g r = .groundroll ↔ g = some true ∧ r ≠ some true) ∧ (solvedBuilder g r ≠ .groundroll → solvedBuilder g r = .solvedTwoDof) := by
  rcases g with _ | _ | _ <;> rcases r with _ | _ | _ <;> decide

/-- In an energy-state mission a builder is only looked for beside the user options. -/
theorem energyBuilder_spec (t : Option (Option (String × Bool))) :
    (energyBuilder t = .ok .energy ↔ t = none) ∧ (∀ n, energyBuilder t = .ok (.user n) ↔ t = some (some (n, true))) ∧
    (energyBuilder t = .error .typeError ↔ t = some none ∨ ∃ n, t = some (some (n, false))) := by
  rcases t with _ | _ | ⟨n, _ | _⟩ <;> simp [energyBuilder]

/-! ## Ranges -/

/-- The target is the given one, or the range of the design; a range of the mission that is set is the target; and the residual is
constrained only when it is set. -/
theorem ranges_spec (db : UnitDB) (hdb : db.Sane) (t : Option (ℚ × String)) (design : ℚ) (c : Config) (r : Ranges)
    (h : ranges db t design c = .ok r) :
    (∀ x u, t = some (x, u) → convertUnits db r.target "NM" u = .ok x) ∧ (t = none → r.target = design) ∧
    (∀ m, r.missionSet = some m → m = r.target) ∧ (r.residual = some true ↔ r.missionSet.isSome = true) ∧
    (c = .twoDof → r.residual = some true) ∧ (c = .energyState → (r.residual = some true ↔ t.isSome = true)) := by
  have key : ∀ x u y, convertUnits db x u "NM" = .ok y → convertUnits db y "NM" u = .ok x :=
    fun x u y => convertUnits_roundtrip db hdb u "NM" x y
  cases c with
  | user n => cases h
  | _ =>
    cases t with
    | none =>
      simp only [ranges] at h; cases h; simp
    | some p =>
      obtain ⟨x, u⟩ := p
      simp only [ranges] at h
      cases hc : convertUnits db x u "NM" with
      | error e => rw [hc] at h; cases h
      | ok y =>
        rw [hc] at h; cases h
        simp
        exact key x u y hc

/-! ## The start of the first phase -/

/-- In an energy-state mission the mass at the start is tied to the mass after take-off in exactly one way: with the take-off by a
connection into an initial state that is an input, else by a constraint on a free initial state. -/
theorem energy_start (first : String) (m0 : MassState) :
    ((start .energyState true first m0).mass.inputInitial = true ∧
      (start .energyState true first m0).conns.filter (fun c => c.2 = "traj." ++ first ++ ".initial_states:mass") =
        [("mission:takeoff:final_mass", "traj." ++ first ++ ".initial_states:mass")] ∧
      (start .energyState true first m0).eqs = [] ∧ "takeoff" ∈ (start .energyState true first m0).subs) ∧
    ((start .energyState false first m0).mass = ⟨false, false⟩ ∧ (start .energyState false first m0).conns = [] ∧
      (start .energyState false first m0).eqs = [("traj." ++ first ++ ".states:mass", "mission:takeoff:final_mass")] ∧
      "takeoff_mass_comp" ∈ (start .energyState false first m0).subs) := by
  refine ⟨⟨rfl, ?_, rfl, by simp [start, configureTraj, postSystems, takeoffSystems]⟩, rfl, rfl, rfl, by simp [start, configureTraj, postSystems, takeoffSystems]⟩
  simp [start, configureTraj, postSystems, takeoffSystems]

/-- With the solved equations it is always a constraint to the gross mass, with or without take-off. -/
theorem solved_start (takeoff : Bool) (first : String) (m0 : MassState) :
    (start .solvedTwoDof takeoff first m0).mass = ⟨false, false⟩ ∧ (start .solvedTwoDof takeoff first m0).conns = [] ∧
    (start .solvedTwoDof takeoff first m0).eqs = [("traj." ++ first ++ ".states:mass", "mission:gross_mass")] := by
  cases takeoff <;> exact ⟨rfl, rfl, rfl⟩

/-- With two degrees of freedom it is a constraint of the phase called `groundroll` to the taxi, whatever the first phase is. -/
theorem twoDof_start (takeoff : Bool) (first : String) (m0 : MassState) :
    (start .twoDof takeoff first m0).eqs = [("traj.groundroll.states:mass", "taxi.mass")] ∧
    ("taxi" ∈ (start .twoDof takeoff first m0).subs ↔ takeoff = true) := by
  cases takeoff <;> exact ⟨rfl, by simp [start, configureTraj, postSystems, takeoffSystems]⟩

/-- Without take-off the constraint refers to a taxi that does not exist, and a mission that does not begin with a phase of that name is
tied at another place. -/
theorem twoDof_start_violated : "taxi" ∉ (start .twoDof false "groundroll" ⟨false, false⟩).subs ∧
    ("traj.groundroll.states:mass", "taxi.mass") ∈ (start .twoDof false "groundroll" ⟨false, false⟩).eqs ∧
    ∀ p ∈ (start .twoDof true "climb" ⟨false, false⟩).eqs, p.1 ≠ "traj.climb.states:mass" := by
  refine ⟨by simp [start, configureTraj, postSystems, takeoffSystems], by simp [start, configureTraj, postSystems], ?_⟩
  rw [(twoDof_start _ _ _).1]
  simp

/-! ## Time options of the solved equations -/

/-- Exact conditions: only a missing scaler of the duration with a missing bound is an error, even when the duration is fixed; the start
and the duration are fixed when given. -/
theorem solvedTime_spec (i d : Option ℚ) (ib b : Option ℚ × Option ℚ) (ir dr : Option ℚ) (n : ℕ) :
    ((∃ r, solvedTime i d ib b ir dr n = .ok r) ↔ dr.isSome = true ∨ (b.1.isSome = true ∧ b.2.isSome = true)) ∧
    ∀ r, solvedTime i d ib b ir dr n = .ok r →
      (r.fixInitial = true ↔ i.isSome = true) ∧ (r.fixDuration = true ↔ d.isSome = true) ∧
      (∀ x, dr = some x → r.durationRef = x) ∧ (∀ x y, dr = none → b = (some x, some y) → r.durationRef = (x + y) / 2) ∧
      (r.initialBounds = if i.isSome then none else some ib) ∧ (r.initialRef.isSome = true ↔ n ≠ 1 ∧ i = none) := by
  obtain ⟨b1, b2⟩ := b
  constructor
  · unfold solvedTime
    dsimp only
    cases dr <;> cases b1 <;> cases b2 <;> simp
  · intro r h
    unfold solvedTime at h
    dsimp only at h
    cases dr with
    | some x =>
      simp only [Except.ok.injEq] at h
      subst h
      cases i <;> simp
    | none =>
      cases b1 with
      | none => cases h
      | some x =>
        cases b2 with
        | none => cases h
        | some y =>
          simp only [Except.ok.injEq] at h
          subst h
          cases i <;> simp

/-- A duration that is given still needs bounds or a scaler. -/
theorem fixed_duration_violated : solvedTime none (some 60) (some 0, some 0) (none, none) none none 1 = .error .typeError := rfl

/-- In parallel, a start with a lower bound only has no scaler: `None` is passed for it. -/
theorem initial_ref_violated (x y z : ℚ) :
    ∃ r, solvedTime none none (some x, none) (some y, some z) none none 2 = .ok r ∧ r.initialRef = some none := by
  refine ⟨_, rfl, ?_⟩
  simp

/-- Nautical miles and kilometres. -/
def exDb : UnitDB := fun s => if s = "NM" then some ⟨1, 1852, 0⟩ else if s = "km" then some ⟨1, 1000, 0⟩ else none

example : ranges exDb (some (1852, "km")) 0 .energyState = .ok ⟨1000, some 1000, some true⟩ := by
  have : convertUnits exDb 1852 "km" "NM" = .ok 1000 := by
    simp [convertUnits, exDb]; norm_num
  simp only [ranges, this, Except.map]

example : (loadExternals (some .brief) [.engine "e", .other "x" false, .builder "b"] ⟨[], [], [], 0⟩) =
    (⟨["e"], ["b"], ["e", "b"], 1⟩, none) := by decide

end Verif.Configure
