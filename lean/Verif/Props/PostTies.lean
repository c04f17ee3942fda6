import Verif.Model.PostTies
import Verif.Lemmas.Dict
import Mathlib.Tactic.Linarith
import Mathlib.Tactic.NormNum

/-!
# C146: Ties between take-off, trajectory and landing, and the guesses of the phases
-/

namespace Verif.PostTies

theorem Net.append_ran (n m : Net) (env : String → List ℝ) : (n.append m).Ran env ↔ n.Ran env ∧ m.Ran env := by
  simp only [Net.Ran, Net.append, List.mem_append]
  constructor
  · rintro ⟨a, b⟩
    exact ⟨⟨fun c h => a c (.inl h), fun c h => b c (.inl h)⟩, fun c h => a c (.inr h), fun c h => b c (.inr h)⟩
  · rintro ⟨⟨a, b⟩, c, d⟩
    exact ⟨fun x h => h.elim (a x) (c x), fun x h => h.elim (b x) (d x)⟩

theorem Net.append_met (n m : Net) (env : String → List ℝ) : (n.append m).Met env ↔ n.Met env ∧ m.Met env := by
  simp only [Net.Met, Net.append, List.mem_append]
  exact ⟨fun a => ⟨fun c h => a c (.inl h), fun c h => a c (.inr h)⟩, fun ⟨a, b⟩ x h => h.elim (a x) (b x)⟩

theorem Net.none_ran (env : String → List ℝ) : Net.none.Ran env := by simp [Net.Ran, Net.none]

theorem Net.none_met (env : String → List ℝ) : Net.none.Met env := by simp [Net.Met, Net.none]

theorem num_first (env : String → List ℝ) (a b : String) (h : env b = Ix.pick .first (env a)) : num env b = num env a := by
  unfold num; rw [h]; cases env a <;> simp [Ix.pick]

theorem num_of (env : String → List ℝ) (a : String) (x : ℝ) (h : env a = [x]) : num env a = x := by simp [num, h]

/-- **With the take-off: the constraints say exactly that Mach and altitude of the first point of the first phase are those at the
end of the take-off, for those of the two that are optimized; mass and distance are handed over.** -/
theorem takeoff_met_iff (first : String) (o : Opts) (env : String → List ℝ) (h : (takeoffTies first o).Ran env) :
    ((takeoffTies first o).Met env ↔
      (o.machOptimize = some true → num env "mission:takeoff:final_mach" = num env ("traj." ++ first ++ ".control_values:mach")) ∧
      (o.altOptimize = some true →
        num env "mission:takeoff:final_altitude" = num env ("traj." ++ first ++ ".control_values:altitude"))) ∧
    env ("traj." ++ first ++ ".initial_states:mass") = env "mission:takeoff:final_mass" ∧
    env ("traj." ++ first ++ ".initial_states:distance") = env "mission:takeoff:ground_distance" := by
  obtain ⟨m, a⟩ := o
  unfold takeoffTies at h ⊢
  rw [Net.append_ran, Net.append_ran] at h
  obtain ⟨⟨h0, h1⟩, h2⟩ := h
  have hm := h0.1 _ (List.mem_cons_self ..)
  have hd := h0.1 ⟨"mission:takeoff:ground_distance", "traj." ++ first ++ ".initial_states:distance", .whole⟩ (by simp)
  refine ⟨?_, hm, hd⟩
  rw [Net.append_met, Net.append_met]
  have z0 : (⟨[], [], [⟨"mission:takeoff:final_mass", "traj." ++ first ++ ".initial_states:mass", .whole⟩,
      ⟨"mission:takeoff:ground_distance", "traj." ++ first ++ ".initial_states:distance", .whole⟩], []⟩ : Net).Met env := by
    simp [Net.Met]
  have e1 : (if (Option.getD m false) = true then machTie first else Net.none).Met env ↔
      (m = some true → num env "mission:takeoff:final_mach" = num env ("traj." ++ first ++ ".control_values:mach")) := by
    by_cases hmv : m = some true
    · subst hmv
      simp only [Option.getD_some, if_true, forall_const] at h1 ⊢
      have c1 := h1.1 ⟨"mission:takeoff:final_mach", "mach_diff_comp.final_mach", .whole⟩ (by simp [machTie])
      have c2 := num_first _ _ _ (h1.1 ⟨"traj." ++ first ++ ".control_values:mach", "mach_diff_comp.initial_mach", .first⟩
        (by simp [machTie]))
      have c3 := num_of _ _ _ (h1.2 _ (List.mem_cons_self ..))
      simp only [Ix.pick] at c1
      have c1' : num env "mach_diff_comp.final_mach" = num env "mission:takeoff:final_mach" := by simp only [num, c1]
      simp only [Net.Met, machTie, List.mem_singleton, forall_eq]
      rw [c3, c1', c2, sub_eq_zero]
    · have : Option.getD m false = false := by
        cases m with
        | none => rfl
        | some b => cases b <;> simp_all
      simp [this, hmv, Net.none_met]
  have e2 : (if (Option.getD a false) = true then altTie first else Net.none).Met env ↔
      (a = some true → num env "mission:takeoff:final_altitude" = num env ("traj." ++ first ++ ".control_values:altitude")) := by
    by_cases hmv : a = some true
    · subst hmv
      simp only [Option.getD_some, if_true, forall_const] at h2 ⊢
      have c1 := h2.1 ⟨"mission:takeoff:final_altitude", "alt_diff_comp.final_altitude", .whole⟩ (by simp [altTie])
      have c2 := num_first _ _ _ (h2.1 ⟨"traj." ++ first ++ ".control_values:altitude", "alt_diff_comp.initial_altitude", .first⟩
        (by simp [altTie]))
      have c3 := num_of _ _ _ (h2.2 _ (List.mem_cons_self ..))
      simp only [Ix.pick] at c1
      have c1' : num env "alt_diff_comp.final_altitude" = num env "mission:takeoff:final_altitude" := by simp only [num, c1]
      simp only [Net.Met, altTie, List.mem_singleton, forall_eq]
      rw [c3, c1', c2, sub_eq_zero]
    · have : Option.getD a false = false := by
        cases a with
        | none => rfl
        | some b => cases b <;> simp_all
      simp [this, hmv, Net.none_met]
  rw [e1, e2]
  exact ⟨fun x => ⟨x.1.2, x.2⟩, fun x => ⟨⟨z0, x.1⟩, x.2⟩⟩

/-- **Without the take-off: the constraint says exactly that the first mass of the first phase is the gross mass without the fuel for
taxi and take-off.** -/
theorem mass_met_iff (first : String) (env : String → List ℝ) (h : (massTies first).Ran env) :
    (massTies first).Met env ↔
      num env ("traj." ++ first ++ ".states:mass") =
        num env "mission:gross_mass" - num env "mission:taxi:fuel_mass_taxi_out" - num env "mission:takeoff:fuel_mass" := by
  have c1 := num_first _ _ _ (h.1 _ (List.mem_cons_self ..))
  have c2 := num_of _ _ _ (h.2 _ (List.mem_cons_self ..))
  have c3 := num_of _ _ _ (h.2 (.diff ("link_" ++ first ++ "_mass.mass") ("link_" ++ first ++ "_mass.lhs:mass") "mission:takeoff:final_mass")
    (by simp [massTies]))
  simp only [Net.Met, massTies, List.mem_singleton, forall_eq]
  rw [c3, c2]
  simp only at c1
  rw [c1, sub_eq_zero]

theorem drop_last (l : List ℝ) (h : l ≠ []) : l.drop (l.length - 1) = [l.getLast h] := by
  obtain ⟨a, b, rfl⟩ : ∃ a b, l = a ++ [b] := ⟨l.dropLast, l.getLast h, (List.dropLast_concat_getLast h).symm⟩
  simp

/-- **The energy-state configurator: which exception comes when.** -/
theorem energyPost_error_iff (phases : Dict String Opts) (main : List String) (takeoff landing : Bool) (e : Err) :
    energyPost phases main takeoff landing = .error e ↔ e = .indexError ∧ (phases = [] ∨ landing = true ∧ main = []) := by
  cases phases with
  | nil => simp [energyPost, firstOf, bind, Except.bind, eq_comm]
  | cons p ps =>
    cases landing
    · simp [energyPost, firstOf, bind, Except.bind, pure, Except.pure]
    · cases hm : main.getLast? with
      | none =>
        have : main = [] := by simpa using hm
        subst this
        simp [energyPost, firstOf, landingTies, bind, Except.bind, eq_comm]
      | some q =>
        have : main ≠ [] := by rintro rfl; simp at hm
        simp [energyPost, firstOf, landingTies, hm, bind, Except.bind, pure, Except.pure, this]

/-- **All that holds after a run of the energy-state problem: the landing starts at the last altitude of the last phase that is no
reserve, the residual of the range is target minus actual range, and the start is tied as above.** -/
theorem energyPost_ran (p : String × Opts) (phases : Dict String Opts) (main : List String) (takeoff landing : Bool) (n : Net)
    (hn : energyPost (p :: phases) main takeoff landing = .ok n) (env : String → List ℝ) (h : n.Ran env) :
    (if takeoff then takeoffTies p.1 p.2 else massTies p.1).Ran env ∧
    (n.Met env ↔ (if takeoff then takeoffTies p.1 p.2 else massTies p.1).Met env) ∧
    num env "mission:constraints:range_residual" = num env "target_range" - num env "mission:range" ∧
    (landing = true → "landing" ∈ n.subs ∧ ∃ hm : main ≠ [], ∀ hl : env ("traj." ++ main.getLast hm ++ ".control_values:altitude") ≠ [],
      num env "mission:landing:initial_altitude" = (env ("traj." ++ main.getLast hm ++ ".control_values:altitude")).getLast hl) := by
  cases landing with
  | false =>
    have hn' : n = ((if takeoff then takeoffTies p.1 p.2 else massTies p.1).append Net.none).append rangeTie := by
      simpa [energyPost, firstOf, bind, Except.bind, pure, Except.pure, eq_comm] using hn
    subst hn'
    rw [Net.append_ran, Net.append_ran] at h
    refine ⟨h.1.1, ?_, num_of _ _ _ (h.2.2 _ (List.mem_cons_self ..)), by simp⟩
    rw [Net.append_met, Net.append_met]
    have : rangeTie.Met env := by simp [Net.Met, rangeTie]
    exact ⟨fun x => x.1.1, fun x => ⟨⟨x, Net.none_met _⟩, this⟩⟩
  | true =>
    cases hm : main.getLast? with
    | none => simp [energyPost, firstOf, landingTies, hm, bind, Except.bind] at hn
    | some q =>
      have hne : main ≠ [] := by rintro rfl; simp at hm
      have hq : main.getLast hne = q := by rw [List.getLast?_eq_some_getLast hne] at hm; simpa using hm
      have hn' : n = ((if takeoff then takeoffTies p.1 p.2 else massTies p.1).append ⟨[], ["landing"],
          [⟨"traj." ++ q ++ ".control_values:altitude", "mission:landing:initial_altitude", .last⟩], []⟩).append rangeTie := by
        simpa [energyPost, firstOf, landingTies, hm, bind, Except.bind, pure, Except.pure, eq_comm] using hn
      subst hn'
      rw [Net.append_ran, Net.append_ran] at h
      refine ⟨h.1.1, ?_, num_of _ _ _ (h.2.2 _ (List.mem_cons_self ..)), fun _ => ⟨by simp [Net.append], hne, fun hl => ?_⟩⟩
      · rw [Net.append_met, Net.append_met]
        have z1 : rangeTie.Met env := by simp [Net.Met, rangeTie]
        have z2 : (⟨[], ["landing"], [⟨"traj." ++ q ++ ".control_values:altitude", "mission:landing:initial_altitude", .last⟩], []⟩ :
          Net).Met env := by simp [Net.Met]
        exact ⟨fun x => x.1.1, fun x => ⟨⟨x, z2⟩, z1⟩⟩
      · have c := h.1.2.1 _ (List.mem_cons_self ..)
        simp only [Ix.pick] at c
        rw [← hq] at c
        rw [drop_last _ hl] at c
        exact num_of _ _ _ c

/-- **The two-degrees-of-freedom configurator needs a phase `ascent`.** -/
theorem twoDofPost_error_iff (phases : List String) (landing : Bool) (e : Err) :
    twoDofPost phases landing = .error e ↔ e = .attributeError ∧ "ascent" ∉ phases := by
  by_cases h : "ascent" ∈ phases <;> simp [twoDofPost, h, eq_comm]

/-- **The times of gear and flaps.** After a run whose constraints hold, the times at which gear and flaps move lie in the ascent
when the design variables are in their bounds, the gear moves before the flaps exactly if its variable is smaller, and the ground
roll starts with the mass after taxi. -/
theorem events_in_ascent (phases : List String) (landing : Bool) (n : Net) (hn : twoDofAll phases landing = .ok n)
    (env : String → List ℝ) (h : n.Ran env) :
    (n.Met env ↔ num env "traj.ascent.t_initial" = num env "mission:takeoff:ascent_t_initial" ∧
      num env "traj.groundroll.states:mass" = num env "taxi.mass") ∧
    (n.Met env → 0 < num env "mission:takeoff:ascent_duration" →
      (0.01 ≤ num env "tau_gear" → num env "tau_gear" ≤ 1 →
        num env "traj.ascent.t_initial" < num env "t_init_gear" ∧
        num env "t_init_gear" ≤ num env "traj.ascent.t_initial" + num env "mission:takeoff:ascent_duration") ∧
      (0.01 ≤ num env "tau_flaps" → num env "tau_flaps" ≤ 1 →
        num env "traj.ascent.t_initial" < num env "t_init_flaps" ∧
        num env "t_init_flaps" ≤ num env "traj.ascent.t_initial" + num env "mission:takeoff:ascent_duration") ∧
      (num env "t_init_gear" < num env "t_init_flaps" ↔ num env "tau_gear" < num env "tau_flaps")) ∧
    env "h_fit.time_cp" = env "traj.ascent.timeseries.time" ∧ env "h_fit.h_cp" = env "traj.ascent.timeseries.altitude" ∧
    num env "mission:constraints:range_residual" = num env "target_range" - num env "mission:range" := by
  by_cases ha : "ascent" ∈ phases
  swap
  · simp [twoDofAll, twoDofPost, ha, bind, Except.bind] at hn
  obtain ⟨a, ha0, hn'⟩ : ∃ a : Net, a.zeros = [] ∧ n = (eventTies.append ((a.append ⟨[], ["h_fit"], [], []⟩).append rangeTie)).append twoDofLink := by
    cases landing
    · exact ⟨Net.none, rfl, by simpa [twoDofAll, twoDofPost, ha, bind, Except.bind, pure, Except.pure, eq_comm] using hn⟩
    · exact ⟨⟨[], ["landing"],
        [⟨"pre_mission.interference_independent_of_shielded_area", "landing.interference_independent_of_shielded_area", .whole⟩,
         ⟨"pre_mission.drag_loss_due_to_shielded_wing_area", "landing.drag_loss_due_to_shielded_wing_area", .whole⟩], []⟩, rfl,
        by simpa [twoDofAll, twoDofPost, ha, bind, Except.bind, pure, Except.pure, eq_comm] using hn⟩
  subst hn'
  rw [Net.append_ran, Net.append_ran, Net.append_ran] at h
  obtain ⟨⟨he, _, hr⟩, hl⟩ := h
  have g := num_of _ _ _ (he.2 _ (List.mem_cons_self ..))
  have f := num_of _ _ _ (he.2 (.affine "t_init_flaps" "mission:takeoff:ascent_duration" "tau_flaps" "mission:takeoff:ascent_t_initial")
    (by simp [eventTies]))
  have s := num_of _ _ _ (hl.2 _ (List.mem_cons_self ..))
  have m := num_of _ _ _ (hl.2 (.diff "taxi_groundroll_mass_constraint.mass" "taxi_groundroll_mass_constraint.lhs:mass"
    "taxi_groundroll_mass_constraint.rhs:mass") (by simp [twoDofLink]))
  have k1 := hl.1 ⟨"traj.ascent.t_initial", "ascent_initial_time_slack_constraint.initial_time", .whole⟩ (by simp [twoDofLink])
  have k2 := hl.1 ⟨"taxi.mass", "taxi_groundroll_mass_constraint.rhs:mass", .whole⟩ (by simp [twoDofLink])
  have k3 := num_first _ _ _ (hl.1 ⟨"traj.groundroll.states:mass", "taxi_groundroll_mass_constraint.lhs:mass", .first⟩ (by simp [twoDofLink]))
  have k4 := hl.1 ⟨"traj.ascent.timeseries.time", "h_fit.time_cp", .whole⟩ (by simp [twoDofLink])
  have k5 := hl.1 ⟨"traj.ascent.timeseries.altitude", "h_fit.h_cp", .whole⟩ (by simp [twoDofLink])
  simp only [Ix.pick] at k1 k2 k4 k5
  have k1' : num env "ascent_initial_time_slack_constraint.initial_time" = num env "traj.ascent.t_initial" := by simp only [num, k1]
  have k2' : num env "taxi_groundroll_mass_constraint.rhs:mass" = num env "taxi.mass" := by simp only [num, k2]
  rw [k1'] at s
  rw [k2', k3] at m
  have hmet : ((eventTies.append ((a.append ⟨[], ["h_fit"], [], []⟩).append rangeTie)).append twoDofLink).Met env ↔
      num env "traj.ascent.t_initial" = num env "mission:takeoff:ascent_t_initial" ∧
      num env "traj.groundroll.states:mass" = num env "taxi.mass" := by
    have hz : ((eventTies.append ((a.append ⟨[], ["h_fit"], [], []⟩).append rangeTie)).append twoDofLink).zeros =
        ["ascent_initial_time_slack_constraint.con_val", "taxi_groundroll_mass_constraint.mass"] := by
      simp [Net.append, eventTies, rangeTie, twoDofLink, ha0]
    unfold Net.Met
    rw [hz]
    simp only [List.mem_cons, List.not_mem_nil, or_false, forall_eq_or_imp, forall_eq]
    rw [s, m, sub_eq_zero, sub_eq_zero]
  refine ⟨hmet, ?_, k4, k5, num_of _ _ _ (hr.2 _ (List.mem_cons_self ..))⟩
  intro hM hd
  obtain ⟨e1, -⟩ := hmet.1 hM
  rw [e1, g, f]
  refine ⟨fun h1 h2 => ?_, fun h1 h2 => ?_, ?_⟩
  · constructor
    · nlinarith
    · nlinarith
  · constructor
    · nlinarith
    · nlinarith
  · constructor
    · intro h
      by_contra hc
      push Not at hc
      nlinarith
    · intro h
      nlinarith

theorem guessLoop_ok {γ : Type} (solved : Bool) (empty : γ) (objects : List String) (info : Dict String (Info γ)) :
    ∀ (ps : List String) (i : ℕ) (evs : List (Ev γ)), guessLoop solved empty objects info i ps = .ok evs →
      ∀ p g, Ev.set p g ∈ evs ↔ ∃ k d, ps[k]? = some p ∧ info.get? p = some d ∧ g = d.guesses.getD empty ∧
        ¬ (solved = true ∧ d.groundRoll = some true ∧ i + k = 0)
  | [], i, evs, h, p, g => by
      simp only [guessLoop, Except.ok.injEq] at h
      subst h
      simp
  | q :: qs, i, evs, h, p, g => by
      rw [guessLoop] at h
      have key : ∃ l d r, (∀ e ∈ l, ∃ o, e = Ev.apply o q) ∧ info.get? q = some d ∧
          guessLoop solved empty objects info (i + 1) qs = .ok r ∧
          evs = (if solved = true ∧ d.groundRoll = some true ∧ i = 0 then l ++ r
            else l ++ [.subsystems q, .set q (d.guesses.getD empty)] ++ r) := by
        revert h
        generalize hl : (if solved = true then (match objects[i]? with
          | Option.none => Except.error Err.indexError
          | some o => Except.ok [Ev.apply o q]) else (Except.ok [] : Except Err (List (Ev γ)))) = t
        intro h
        cases t with
        | error e => simp at h
        | ok l =>
          have hla : ∀ e ∈ l, ∃ o, e = Ev.apply o q := by
            cases solved
            · simp at hl; subst hl; simp
            · simp only [if_true] at hl
              cases ho : objects[i]? with
              | none => simp [ho] at hl
              | some o => simp [ho] at hl; subst hl; simp
          cases hi : info.get? q with
          | none => simp [hi] at h
          | some d =>
            cases hr : guessLoop solved empty objects info (i + 1) qs with
            | error e => simp [hi, hr] at h
            | ok r =>
              refine ⟨l, d, r, hla, rfl, rfl, ?_⟩
              simp only [hi, hr] at h
              by_cases hc : solved = true ∧ d.groundRoll = some true ∧ i = 0
              · rw [if_pos hc] at h ⊢
                exact (Except.ok.inj h).symm
              · rw [if_neg hc] at h ⊢
                exact (Except.ok.inj h).symm
      obtain ⟨l, d, r, hla, hd, hr, rfl⟩ := key
      have ih := guessLoop_ok solved empty objects info qs (i + 1) r hr p g
      have hnl : Ev.set p g ∉ l := by
        intro hm
        obtain ⟨o, ho⟩ := hla _ hm
        cases ho
      have tail : (∃ k d', (q :: qs)[k]? = some p ∧ info.get? p = some d' ∧ g = d'.guesses.getD empty ∧
          ¬ (solved = true ∧ d'.groundRoll = some true ∧ i + k = 0)) ↔
          (q = p ∧ g = d.guesses.getD empty ∧ ¬ (solved = true ∧ d.groundRoll = some true ∧ i = 0)) ∨ Ev.set p g ∈ r := by
        rw [ih]
        constructor
        · rintro ⟨k, d', h1, h2, h3, h4⟩
          cases k with
          | zero =>
            simp at h1
            subst h1
            rw [hd] at h2
            cases h2
            exact .inl ⟨rfl, h3, by simpa using h4⟩
          | succ k => exact .inr ⟨k, d', by simpa using h1, h2, h3, by rintro ⟨_, _, x⟩; omega⟩
        · rintro (⟨rfl, h3, h4⟩ | ⟨k, d', h1, h2, h3, _⟩)
          · exact ⟨0, d, by simp, hd, h3, by simpa using h4⟩
          · exact ⟨k + 1, d', by simpa using h1, h2, h3, by rintro ⟨_, _, x⟩; omega⟩
      rw [tail]
      by_cases hc : solved = true ∧ d.groundRoll = some true ∧ i = 0
      · rw [if_pos hc]
        simp [hnl, hc]
      · rw [if_neg hc]
        simp only [List.mem_append, hnl, false_or, List.mem_cons, reduceCtorEq, List.not_mem_nil, or_false, Ev.set.injEq]
        constructor
        · rintro (⟨rfl, rfl⟩ | h)
          · exact .inl ⟨rfl, rfl, hc⟩
          · exact .inr h
        · rintro (⟨rfl, rfl, -⟩ | h)
          · exact .inl ⟨rfl, rfl⟩
          · exact .inr h

/-- **Which phases get guesses.** The configurator is called for every phase of the trajectory with the guesses given for it, or none,
except the first phase of the solved equations when it is a ground roll. -/
theorem guesses_set_iff {γ : Type} (solved : Bool) (empty : γ) (objects : List String) (info : Dict String (Info γ))
    (ps : List String) (pre : String) (evs : List (Ev γ))
    (h : setGuesses solved empty objects info (some ps) none pre = .ok evs) (p : String) (g : γ) :
    Ev.set p g ∈ evs ↔ ∃ k d, ps[k]? = some p ∧ info.get? p = some d ∧ g = d.guesses.getD empty ∧
      ¬ (solved = true ∧ d.groundRoll = some true ∧ k = 0) := by
  have h' : guessLoop solved empty objects info 0 ps = .ok evs := by simpa [setGuesses] using h
  simpa using guessLoop_ok solved empty objects info ps 0 evs h' p g

theorem guessLoop_events {γ : Type} (solved : Bool) (empty : γ) (objects : List String) (info : Dict String (Info γ)) :
    ∀ (ps : List String) (i : ℕ), (∀ p ∈ ps, info.has p = true) → (∀ k, k < ps.length → objects[i + k]? = ps[k]?) →
      ∃ evs, guessLoop solved empty objects info i ps = .ok evs ∧
        evs.filterMap (fun e => match e with | .apply o p => some (o, p) | _ => none) = (if solved then ps.map (fun p => (p, p)) else []) ∧
        evs.filterMap (fun e => match e with | .subsystems p => some p | _ => none) =
          evs.filterMap (fun e => match e with | .set p _ => some p | _ => none)
  | [], i, _, _ => ⟨[], rfl, by simp, rfl⟩
  | q :: qs, i, hi, ho => by
      obtain ⟨d, hd⟩ := Option.isSome_iff_exists.1 (hi q (List.mem_cons_self ..))
      obtain ⟨r, hr, h1, h2⟩ := guessLoop_events solved empty objects info qs (i + 1) (fun p hp => hi p (List.mem_cons_of_mem _ hp))
        (fun k hk => by have := ho (k + 1) (by simpa using hk); rw [← Nat.add_assoc, Nat.add_right_comm] at this; simpa using this)
      have ho0 : objects[i]? = some q := by simpa using ho 0 (by simp)
      cases solved with
      | false => exact ⟨_, by simp only [guessLoop, hd, hr]; rfl, by simp at h1 ⊢; exact h1, by simp [h2]⟩
      | true =>
        by_cases hc : d.groundRoll = some true ∧ i = 0
        · refine ⟨[.apply q q] ++ r, ?_, ?_, ?_⟩
          · obtain ⟨hg, rfl⟩ := hc
            simp only [Nat.zero_add] at hr
            simp [guessLoop, ho0, hd, hr, hg]
          · simp at h1 ⊢; exact h1
          · simp [h2]
        · refine ⟨[.apply q q] ++ [.subsystems q, .set q (d.guesses.getD empty)] ++ r, ?_, ?_, ?_⟩
          · simp [guessLoop, ho0, hd, hr, hc]
          · simp at h1 ⊢; exact h1
          · simp [h2]

theorem addPhases_spec (names : List String) (h : names.Nodup) : addPhases names = (names, names) := by
  have : ∀ (l done : List String), (done ++ l).Nodup →
      l.foldl (fun (s : List String × List String) n => (s.1 ++ [n], if n ∈ s.2 then s.2 else s.2 ++ [n])) (done, done) = (done ++ l, done ++ l) := by
    intro l
    induction l with
    | nil => intro done _; simp
    | cons a l ih =>
      intro done hd
      have ha : a ∉ done := by
        intro hm
        rw [List.nodup_append] at hd
        exact hd.2.2 a hm a (List.mem_cons_self ..) rfl
      simp only [List.foldl_cons, ha, if_false]
      rw [ih (done ++ [a]) (by simpa using hd)]
      simp
  simpa [addPhases] using this names [] (by simpa using h)

/-- **The objects belong to their phases.** After `add_phases` the loop ends without an exception; with the solved equations each
phase is prepared by its own object, otherwise by none; the subsystems are asked for exactly the phases that get guesses, in order. -/
theorem guesses_after_addPhases {γ : Type} (solved : Bool) (empty : γ) (info : Dict String (Info γ)) (hk : info.keys.Nodup) :
    ∃ evs, setGuesses solved empty (addPhases info.keys).1 info (some (addPhases info.keys).2) none "" = .ok evs ∧
      evs.filterMap (fun e => match e with | .apply o p => some (o, p) | _ => none) =
        (if solved then info.keys.map (fun p => (p, p)) else []) ∧
      evs.filterMap (fun e => match e with | .subsystems p => some p | _ => none) =
        evs.filterMap (fun e => match e with | .set p _ => some p | _ => none) := by
  rw [addPhases_spec _ hk]
  have hh : ∀ p ∈ info.keys, info.has p = true := by
    intro p hp
    obtain ⟨x, hx, rfl⟩ := List.mem_map.1 hp
    clear hp hk
    induction info with
    | nil => simp at hx
    | cons y ys ih =>
      unfold Dict.has Dict.get?
      by_cases he : y.1 = x.1
      · simp [he]
      · simp only [he, if_false]
        rcases List.mem_cons.1 hx with rfl | hx'
        · exact absurd rfl he
        · exact ih hx'
  obtain ⟨evs, h1, h2, h3⟩ := guessLoop_events solved empty info.keys info info.keys 0 hh (by intro k _; simp)
  exact ⟨evs, by simpa [setGuesses] using h1, h2, h3⟩

/-- **The cases of the trajectory.** No trajectory: nothing happens. A parent counts only together with a prefix, and it must have a
trajectory itself. -/
theorem setGuesses_cases {γ : Type} (solved : Bool) (empty : γ) (objects : List String) (info : Dict String (Info γ))
    (own : Option (List String)) (parent : Option (Option (List String))) (pre : String) :
    (own = none → setGuesses solved empty objects info own parent pre = .ok []) ∧
    (pre = "" → setGuesses solved empty objects info own parent pre = setGuesses solved empty objects info own none "") ∧
    (own ≠ none → pre ≠ "" → parent = some none → setGuesses solved empty objects info own parent pre = .error .attributeError) ∧
    (∀ qs, own ≠ none → pre ≠ "" → parent = some (some qs) →
      setGuesses solved empty objects info own parent pre = setGuesses solved empty objects info (some qs) none "") := by
  cases own with
  | none => simp [setGuesses]
  | some ps =>
    refine ⟨by simp, ?_, ?_, ?_⟩
    · rintro rfl; simp [setGuesses]
    · rintro - h rfl; simp [setGuesses, h]
    · rintro qs - h rfl; simp [setGuesses, h]

/-- **Violated with a parent:** the loop runs over the phases of the trajectory of the parent but reads the settings of the group, so
a phase the group does not know is a `KeyError`. -/
theorem parent_phases_violated : ∃ (info : Dict String (Info ℕ)) (qs : List String),
    setGuesses false 0 info.keys info (some info.keys) none "" = .ok [.subsystems "climb", .set "climb" 7] ∧
    setGuesses false 0 info.keys info (some info.keys) (some (some qs)) "outer" = .error .keyError :=
  ⟨[("climb", ⟨none, some 7⟩)], ["climb", "cruise"], rfl, rfl⟩

/-- A phase of a trajectory without settings is a `KeyError`, wherever it is in the sequence. -/
theorem missing_phase {γ : Type} (empty : γ) (objects : List String) (info : Dict String (Info γ)) :
    ∀ (ps : List String) (i : ℕ), (∃ p ∈ ps, info.get? p = none) → guessLoop false empty objects info i ps = .error .keyError
  | [], _, h => by obtain ⟨p, hp, _⟩ := h; simp at hp
  | q :: qs, i, ⟨p, hp, h⟩ => by
      cases hq : info.get? q with
      | none => simp [guessLoop, hq]
      | some d =>
        rcases List.mem_cons.1 hp with rfl | hp'
        · rw [hq] at h; cases h
        · simp [guessLoop, hq, missing_phase empty objects info qs (i + 1) ⟨p, hp', h⟩]

/-- The ground roll at the start of the solved equations: prepared, but no guesses; later ones get theirs. -/
example : setGuesses true 0 ["roll", "climb", "stop"] [("roll", ⟨some true, some 1⟩), ("climb", ⟨none, some 2⟩), ("stop", ⟨some true, none⟩)]
    (some ["roll", "climb", "stop"]) none "" =
    .ok [.apply "roll" "roll", .apply "climb" "climb", .subsystems "climb", .set "climb" 2, .apply "stop" "stop", .subsystems "stop", .set "stop" 0] := rfl

/-- A run of the energy-state problem that meets the hypotheses: all variables zero or empty singletons. -/
example : (takeoffTies "climb" ⟨some true, some true⟩).Ran (fun _ => [0]) ∧ (takeoffTies "climb" ⟨some true, some true⟩).Met (fun _ => [0]) := by
  constructor
  · constructor
    · intro c hc
      simp [takeoffTies, Net.append, machTie, altTie] at hc
      rcases hc with rfl | rfl | rfl | rfl | rfl | rfl <;> rfl
    · intro c hc
      simp [takeoffTies, Net.append, machTie, altTie] at hc
      rcases hc with rfl | rfl <;> simp [Comp.Ran, num]
  · intro z _; rfl

end Verif.PostTies
