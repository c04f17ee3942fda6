import Verif.Model.ProblemSteps
import Verif.Props.Configurators
import Verif.Lemmas.Dict
import Mathlib.Algebra.Order.Ring.Rat
import Mathlib.Tactic.NormNum

/-! # The steps of a problem with one or several missions -/

namespace Verif.ProblemSteps
open Verif.Configure

/-! ## Steps reach every mission -/

/-- The steps a group has made, without those before. -/
def made (g g' : Grp) (l : List Step) (v : Option Verb) : Prop := g'.steps = g.steps ++ l.map (fun s => (s, v))

/-- With several missions each group makes the step once, in its place, and the model makes none; else only the model makes it. -/
theorem step_all (p q : Prob) (s : Step) (v : Option ℤ) (h : p.step s v = .ok q) :
    ∃ w, overrideVerbosity p.verb v = .ok w ∧
    (p.ptype = some .multiMission → q.model = p.model ∧ q.groups.keys = p.groups.keys ∧
      ∀ n, (q.groups.get? n = (p.groups.get? n).map (·.make s w)) ∧ ∀ g g', p.groups.get? n = some g → q.groups.get? n = some g' → made g g' [s] w) ∧
    (p.ptype ≠ some .multiMission → q.groups = p.groups ∧ made p.model q.model [s] w) := by
  have hm : ∀ (g : Grp) w, made g (g.make s w) [s] w := by
    intro g w
    unfold made Grp.make
    by_cases hs : s = .preprocess <;> simp [hs, preprocess]
  have hg : ∀ (d : Dict String Grp) w n, Dict.get? (d.map (fun q => (q.1, q.2.make s w))) n = (d.get? n).map (·.make s w) := by
    intro d w n
    induction d with
    | nil => rfl
    | cons x d ih =>
      obtain ⟨k, g⟩ := x
      simp only [List.map_cons, Dict.get?]
      split_ifs <;> simp [ih]
  unfold Prob.step at h
  cases hv : overrideVerbosity p.verb v with
  | error e => rw [hv] at h; cases h
  | ok w =>
    rw [hv] at h
    simp only [Except.ok.injEq] at h
    refine ⟨w, rfl, fun ht => ?_, fun ht => ?_⟩
    · rw [if_pos ht] at h
      subst h
      refine ⟨rfl, ?_, fun n => ⟨hg _ _ _, fun g g' h1 h2 => ?_⟩⟩
      · simp [Dict.keys, Function.comp_def]
      · simp only [hg, h1, Option.map_some, Option.some.injEq] at h2
        subst h2
        exact hm g w
    · rw [if_neg ht] at h
      subst h
      exact ⟨rfl, hm _ _⟩

/-- A step fails only for a verbosity that is no level. -/
theorem step_error (p : Prob) (s : Step) (v : Option ℤ) : (∃ q, p.step s v = .ok q) ↔ ∀ i, v = some i → 0 ≤ i ∧ i ≤ 3 := by
  have key : (∃ w, overrideVerbosity p.verb v = .ok w) ↔ ∀ i, v = some i → 0 ≤ i ∧ i ≤ 3 := by
    cases v with
    | none => simp [overrideVerbosity]
    | some i =>
      by_cases hi : i < 0 ∨ 3 < i
      · rw [(overrideVerbosity_spec p.verb).2.2 i hi]
        constructor
        · rintro ⟨w, hw⟩; cases hw
        · intro h; have := h i rfl; omega
      · have : i = 0 ∨ i = 1 ∨ i = 2 ∨ i = 3 := by omega
        constructor
        · intro _ j hj; cases hj; omega
        · intro _
          rcases this with rfl | rfl | rfl | rfl <;> exact ⟨_, rfl⟩
  rw [← key]
  unfold Prob.step
  cases overrideVerbosity p.verb v <;> simp

/-- The four steps of `build_model` in the right order, for every group. -/
theorem build_all (p q : Prob) (v : Option ℤ) (h : p.build v = .ok q) :
    ∃ w, overrideVerbosity p.verb v = .ok w ∧
    (p.ptype = some .multiMission → q.model = p.model ∧ ∀ n g', q.groups.get? n = some g' →
      ∃ g, p.groups.get? n = some g ∧ made g g' [.preMission, .phases, .postMission, .link] w) ∧
    (p.ptype ≠ some .multiMission → q.groups = p.groups ∧ made p.model q.model [.preMission, .phases, .postMission, .link] w) := by
  unfold Prob.build at h
  cases hv : overrideVerbosity p.verb v with
  | error e => rw [hv] at h; cases h
  | ok w =>
    rw [hv] at h
    simp only [Except.ok.injEq] at h
    refine ⟨w, rfl, fun ht => ?_, fun ht => ?_⟩
    · rw [if_pos ht] at h
      subst h
      refine ⟨rfl, fun n g' hg => ?_⟩
      dsimp only at hg
      generalize p.groups = d at hg ⊢
      induction d with
      | nil => cases hg
      | cons x d ih =>
        obtain ⟨k, g⟩ := x
        simp only [List.map_cons, Dict.get?] at hg ⊢
        split_ifs at hg ⊢ with hk
        · cases hg
          exact ⟨g, rfl, by simp [made, Grp.make]⟩
        · exact ih hg
    · rw [if_neg ht] at h
      subst h
      exact ⟨rfl, by simp [made, Grp.make]⟩

/-- `build_model` does what the four methods do one after the other, with at least one mission. -/
theorem build_refines (p : Prob) (v : Option ℤ) (hg : p.groups ≠ []) :
    p.build v = (p.step .preMission v >>= fun a => a.addPhases v >>= fun b => b.step .postMission v >>= fun c => c.step .link v) := by
  unfold Prob.build
  cases hv : overrideVerbosity p.verb v with
  | error e => simp only [Prob.step, hv]; rfl
  | ok w =>
    by_cases ht : p.ptype = some .multiMission
    · have hn : p.groups.map (fun q => (q.1, q.2.make .preMission w)) ≠ [] := by simpa using hg
      simp [Prob.step, Prob.addPhases, hv, ht, hn, bind, Except.bind, Function.comp_def]
    · simp [Prob.step, Prob.addPhases, hv, ht, bind, Except.bind]

/-- Without a mission the steps one by one end in an error, the single call does nothing. -/
theorem build_empty_violated (t : Verb) :
    (Prob.new (some .multiMission) (some t)).addPhases none = .error .unboundLocal ∧
    (Prob.new (some .multiMission) (some t)).build none = .ok (Prob.new (some .multiMission) (some t)) := ⟨rfl, rfl⟩

/-! ## Adding missions -/

/-- A new name is added at the end with the metadata of the problem, already preprocessed; the first group gives the verbosity. -/
theorem addGroup_spec (p : Prob) (n : String) (v : Verb) (b : Option Bool) :
    ((∃ q, p.addGroup n v b = .ok q) ↔ n ∉ p.groups.keys) ∧
    ∀ q, p.addGroup n v b = .ok q → q.groups.keys = p.groups.keys ++ [n] ∧ (∀ m, m ≠ n → q.groups.get? m = p.groups.get? m) ∧
      (∃ g, q.groups.get? n = some g ∧ g.steps = [(.preprocess, none)] ∧ g.loaded.metas = p.metas ∧ g.loaded.engines = ["engine_deck"] ∧
        g.subsystems = core) ∧
      q.model = p.model ∧ q.ptype = p.ptype ∧ (∀ w, p.verb = some w → q.verb = some w) ∧ (p.verb = none → q.verb = some v) ∧
      (∀ x, b = some x → q.payload = x) := by
  have hh : p.groups.has n = true ↔ n ∈ p.groups.keys := by rw [Dict.has, Dict.get?_isSome_iff]
  unfold Prob.addGroup
  by_cases hn : n ∈ p.groups.keys
  · rw [if_pos (hh.2 hn)]
    refine ⟨⟨?_, fun h => (h hn).elim⟩, ?_⟩
    · rintro ⟨q, hq⟩; cases hq
    · intro q hq; cases hq
  · rw [if_neg (fun h => hn (hh.1 h))]
    refine ⟨⟨fun _ => hn, fun _ => ⟨_, rfl⟩⟩, fun q hq => ?_⟩
    cases hq
    refine ⟨?_, fun m hm => ?_, ⟨_, by rw [Dict.get?_set, if_pos rfl], rfl, rfl, rfl, rfl⟩, rfl, rfl, ?_, ?_, ?_⟩
    · exact (Dict.keys_set _ _ _).trans (if_neg hn)
    · simp only [Dict.get?_set]
      rw [if_neg (fun h => hm h.symm)]
    all_goals
      intros
      simp_all

/-- A mission may be added to a problem of another type without an error; no later step reaches it. -/
theorem addGroup_type_violated (t : PType) (ht : t ≠ .multiMission) (n : String) (v : Verb) (s : Step) (w : Option ℤ) :
    ∃ q, (Prob.new (some t) none).addGroup n v none = .ok q ∧ (q.groups.get? n).isSome = true ∧
      ∀ r, q.step s w = .ok r → r.groups = q.groups := by
  obtain ⟨⟨_, h2⟩, h3⟩ := addGroup_spec (Prob.new (some t) none) n v none
  obtain ⟨q, hq⟩ := h2 (by simp [Prob.new, Dict.keys])
  obtain ⟨_, _, ⟨g, hg, _⟩, _, hp, _⟩ := h3 q hq
  refine ⟨q, hq, by rw [hg]; rfl, fun r hr => ?_⟩
  obtain ⟨_, _, _, h⟩ := step_all q r s w hr
  refine (h ?_).1
  rw [hp]
  simpa [Prob.new] using ht

/-! ## External subsystems -/

/-- The names of the engine models given. -/
def enginesOf (l : List Ext) : List String := (l.filter (fun e => e.isEngine)).map (·.name)

/-- The names of the other builders given. -/
def buildersOf (l : List Ext) : List String := (l.filter (fun e => !e.isEngine)).map (·.name)

/-- With one mission, builders loaded before preprocessing are used after it, in order behind the core, and the engines are exactly those
given, or the deck of the user. -/
theorem single_external (t : Option PType) (ft : PType) (fv : Verb) (v w : Option ℤ) (l : List Ext) (hl : ∀ e ∈ l, e.improper = false)
    (ht : (t.getD ft) ≠ .multiMission) (a b : Prob) (ha : ((Prob.new t none).loadInputs ft fv none).loadExternal l v = .ok a)
    (hb : a.step .preprocess w = .ok b) :
    b.model.subsystems = core ++ buildersOf l ∧
    b.model.loaded.engines = (if enginesOf l = [] then ["engine_deck"] else enginesOf l) ∧ b.metas = l.map (·.name) := by
  have hp : ((Prob.new t none).loadInputs ft fv none).ptype ≠ some .multiMission := by
    simp only [Prob.loadInputs, Prob.new]; exact fun h => ht (Option.some.inj h)
  unfold Prob.loadExternal at ha
  cases hv : overrideVerbosity ((Prob.new t none).loadInputs ft fv none).verb v with
  | error e => rw [hv] at ha; cases ha
  | ok v' =>
    simp only [hv, if_neg hp, load_proper v' l hl, Except.ok.injEq] at ha
    subst ha
    unfold Prob.step at hb
    dsimp only at hb
    cases hw : overrideVerbosity ((Prob.new t none).loadInputs ft fv none).verb w with
    | error e => rw [hw] at hb; cases hb
    | ok w' =>
      simp only [hw, if_neg hp, Except.ok.injEq] at hb
      subst hb
      simp [Grp.make, preprocess, Prob.loadInputs, Prob.new, Grp.new, enginesOf, buildersOf]

theorem loadAll_proper (v : Option Verb) (l : List Ext) (hl : ∀ e ∈ l, e.improper = false) (d : Dict String Grp) :
    loadAll v l d = .ok (d.map (fun q => (q.1, { q.2 with loaded := ⟨q.2.loaded.engines ++ enginesOf l, q.2.loaded.externals ++ buildersOf l,
      q.2.loaded.metas ++ l.map (·.name), q.2.loaded.warned⟩ }))) := by
  induction d with
  | nil => rfl
  | cons q d ih =>
    obtain ⟨n, g⟩ := q
    simp only [loadAll, load_proper v l hl, ih, List.map_cons, enginesOf, buildersOf]

/-- With several missions every group gets every subsystem, and the metadata of the last one goes to the problem, with that of all
subsystems given. -/
theorem multi_external (p q : Prob) (l : List Ext) (v : Option ℤ) (hl : ∀ e ∈ l, e.improper = false) (ht : p.ptype = some .multiMission)
    (h : p.loadExternal l v = .ok q) :
    q.groups.keys = p.groups.keys ∧ (∀ x ∈ q.groups, ∃ g, (x.1, g) ∈ p.groups ∧ x.2.loaded.engines = g.loaded.engines ++ enginesOf l ∧
      x.2.loaded.externals = g.loaded.externals ++ buildersOf l ∧ x.2.subsystems = g.subsystems) ∧
    (∀ e ∈ l, e.name ∈ q.metas) ∧ ∀ m ∈ p.metas, m ∈ q.metas := by
  unfold Prob.loadExternal at h
  cases hv : overrideVerbosity p.verb v with
  | error e => rw [hv] at h; cases h
  | ok w =>
    simp only [hv, if_pos ht, loadAll_proper w l hl] at h
    split at h
    · cases h
    · rename_i x hx
      cases h
      refine ⟨by simp [Dict.keys, Function.comp_def], ?_, ?_, fun m hm => List.mem_append_left _ hm⟩
      · intro x hx
        obtain ⟨⟨n, g⟩, hg, rfl⟩ := List.mem_map.1 hx
        exact ⟨g, hg, rfl, rfl, rfl⟩
      · intro e he
        obtain ⟨⟨n, g⟩, hg, rfl⟩ := List.mem_map.1 (List.mem_of_getLast? hx)
        exact List.mem_append_right _ (List.mem_append_right _ (List.mem_map.2 ⟨e, he, rfl⟩))

/-- Missions are preprocessed when they are added, so subsystems, which can only be loaded afterwards, are not used by the analysis; an
engine model comes beside the deck that was built meanwhile. -/
theorem multi_external_violated (n : String) (v : Verb) (b e : String) :
    ∃ p q r, (Prob.new (some .multiMission) none).addGroup n v none = .ok p ∧ p.loadExternal [.builder b, .engine e] none = .ok q ∧
      q.build none = .ok r ∧ ∀ g, r.groups.get? n = some g →
        g.subsystems = core ∧ g.loaded.externals = [b] ∧ g.loaded.engines = ["engine_deck", e] := by
  refine ⟨_, _, _, rfl, rfl, rfl, fun g hg => ?_⟩
  simp [Dict.get?, Dict.set, Prob.new] at hg
  subst hg
  simp [Grp.make, Grp.new, preprocess]

/-- A second preprocessing brings the builders in, but the deck stays beside the engine model. -/
theorem multi_external_partial (p q r : Prob) (l : List Ext) (v w : Option ℤ) (hl : ∀ e ∈ l, e.improper = false)
    (ht : p.ptype = some .multiMission) (h : p.loadExternal l v = .ok q) (hr : q.step .preprocess w = .ok r) (n : String) (g : Grp)
    (hg : r.groups.get? n = some g) :
    ∃ g0, (n, g0) ∈ p.groups ∧ g.subsystems = core ++ (g0.loaded.externals ++ buildersOf l) ∧
      (g0.loaded.engines ≠ [] → g.loaded.engines = g0.loaded.engines ++ enginesOf l) := by
  have htq : q.ptype = some .multiMission := by
    unfold Prob.loadExternal at h
    cases hv : overrideVerbosity p.verb v with
    | error e => rw [hv] at h; cases h
    | ok w =>
      simp only [hv, if_pos ht, loadAll_proper w l hl] at h
      split at h
      · cases h
      · cases h; exact ht
  obtain ⟨_, h2, _⟩ := multi_external p q l v hl ht h
  obtain ⟨w', _, h3, _⟩ := step_all q r .preprocess w hr
  have h4 := ((h3 htq).2.2 n).1
  rw [hg] at h4
  cases hq : q.groups.get? n with
  | none => rw [hq] at h4; cases h4
  | some g1 =>
    rw [hq] at h4
    cases h4
    obtain ⟨g0, hg0, a, b, _⟩ := h2 _ (Dict.mem_of_get? _ hq)
    refine ⟨g0, hg0, ?_, fun hne => ?_⟩
    · simp only [Grp.make, if_true, preprocess]
      rw [b]
    · simp only [Grp.make, if_true, preprocess]
      rw [a, if_neg (by simp [hne])]

/-- Without a mission there is nothing to load into, and the name of the loop is unbound. -/
theorem no_group_violated (l : List Ext) (v : Verb) : (Prob.new (some .multiMission) (some v)).loadExternal l none = .error .unboundLocal := rfl

/-- At setup the metadata of the problem replaces that of each group: what a group had merged on its own is lost. -/
theorem setup_meta (p : Prob) :
    (p.ptype = some .multiMission → ∀ x ∈ p.setupMeta.groups, x.2.loaded.metas = p.metas) ∧
    (p.ptype ≠ some .multiMission → p.setupMeta.model.loaded.metas = p.metas) := by
  constructor
  · intro h x hx
    simp only [Prob.setupMeta, if_pos h] at hx
    obtain ⟨y, _, rfl⟩ := List.mem_map.1 hx
    rfl
  · intro h
    simp only [Prob.setupMeta, if_neg h]

/-! ## The driver -/

/-- The option that limits the iterations of an optimizer. -/
def limitOf (d : Driver) (o : String) : Option OVal :=
  if o = "SNOPT" then d.settings.get? "Major iterations limit"
  else if o = "IPOPT" then d.settings.get? "max_iter"
  else d.options.get? "maxiter"

/-- For the three known optimizers the limit is the one given, or fifty; the optimizer is the one asked for, and SciPy is used exactly
for SLSQP. -/
theorem driver_limit (v : Verb) (o : Option String) (c : Option Bool) (n : Option ℤ) :
    Dict.get? (addDriver v o c n).options "optimizer" = some (.s (o.getD "IPOPT")) ∧
    ((addDriver v o c n).scipy = true ↔ o = some "SLSQP") ∧
    (o.getD "IPOPT" ∈ ["SNOPT", "IPOPT", "SLSQP"] → limitOf (addDriver v o c n) (o.getD "IPOPT") = some (.i (n.getD 50))) := by
  have e : ∀ x : String, o.getD "IPOPT" = x → x ≠ "IPOPT" → o = some x := by
    intro x h1 h2
    cases o with
    | none => exact (h2 h1.symm).elim
    | some y => exact congrArg some h1
  unfold addDriver
  dsimp only
  by_cases h1 : o.getD "IPOPT" = "SNOPT"
  · rw [if_pos h1]
    refine ⟨by simp [Dict.get?], ?_, fun _ => ?_⟩
    · simp [e _ h1 (by decide)]
    · rw [h1]; cases v <;> simp [limitOf, snopt, Dict.get?]
  · rw [if_neg h1]
    by_cases h2 : o.getD "IPOPT" = "IPOPT"
    · rw [if_pos h2]
      refine ⟨by simp [Dict.get?], ?_, fun _ => ?_⟩
      · simp only [Bool.false_eq_true, false_iff]
        rintro rfl
        exact absurd h2 (by decide)
      · rw [h2]; cases v <;> simp [limitOf, ipopt, Dict.get?]
    · rw [if_neg h2]
      by_cases h3 : o.getD "IPOPT" = "SLSQP"
      · rw [if_pos h3]
        refine ⟨by simp [Dict.get?], ?_, fun _ => ?_⟩
        · simp [e _ h3 (by decide)]
        · rw [h3]; simp [limitOf, Dict.get?]
      · rw [if_neg h3]
        refine ⟨by simp [Dict.get?], ?_, fun h => ?_⟩
        · simp only [Bool.false_eq_true, false_iff]
          rintro rfl
          exact h3 rfl
        · simp only [List.mem_cons, List.not_mem_nil, or_false] at h
          tauto

/-- For any other optimizer the limit is not used: the driver does not depend on it. -/
theorem driver_limit_violated (v : Verb) (o : String) (h : o ∉ ["SNOPT", "IPOPT", "SLSQP"]) (c : Option Bool) (n m : Option ℤ) :
    addDriver v (some o) c n = addDriver v (some o) c m ∧ (addDriver v (some o) c n).settings = [] := by
  simp only [List.mem_cons, List.not_mem_nil, or_false, not_or] at h
  simp only [addDriver, Option.getD_some, if_neg h.1, if_neg h.2.1, if_neg h.2.2, and_self]

/-- Colouring is declared unless it is refused, and says more the louder the messages. -/
theorem driver_coloring (v : Verb) (o : Option String) (c : Option Bool) (n : Option ℤ) :
    ((addDriver v o c n).coloring = none ↔ c = some false) ∧
    ∀ a b, (addDriver v o c n).coloring = some (a, b) → (a = true ↔ 2 ≤ v.toInt) ∧ (b = true ↔ v = .debug) := by
  have : (addDriver v o c n).coloring = if c.getD true then some (coloringOf v) else none := by
    unfold addDriver
    dsimp only
    split_ifs <;> rfl
  rw [this]
  constructor
  · rcases c with _ | _ | _ <;> simp
  · intro a b h
    rcases c with _ | _ | _ <;> simp at h
    all_goals
      cases v <;> simp [coloringOf] at h <;> (obtain ⟨rfl, rfl⟩ := h; simp [Verb.toInt])

/-- No setting is made twice. -/
theorem driver_nodup (v : Verb) (o : Option String) (c : Option Bool) (n : Option ℤ) :
    (addDriver v o c n).options.keys.Nodup ∧ (addDriver v o c n).settings.keys.Nodup := by
  unfold addDriver
  dsimp only
  split_ifs <;> cases v <;> simp [Dict.keys, printOptions, debugOptions, snopt, ipopt]

/-- How much the optimizer prints never falls when the messages get louder. -/
def printLevel (d : Driver) : ℤ :=
  match d.settings.get? "print_level", d.settings.get? "iSumm", d.settings.get? "iPrint" with
  | some (.i x), _, _ => x
  | _, some (.i x), some (.i y) => x + y
  | _, _, _ => if d.options.get? "disp" = some (.b true) then 1 else 0

theorem driver_print_mono (v w : Verb) (h : v.toInt ≤ w.toInt) (o : Option String) (c : Option Bool) (n : Option ℤ) :
    printLevel (addDriver v o c n) ≤ printLevel (addDriver w o c n) := by
  unfold addDriver
  dsimp only
  split_ifs with h1 h2 h3 h4 h5 h6
  all_goals
    cases v <;> cases w <;> simp [Verb.toInt] at h <;>
      simp [printLevel, snopt, ipopt, Dict.get?, printOptions, debugOptions]

/-- With debugging the results of the optimizer are printed in full: `print_results` keeps the default of the driver. -/
theorem driver_results (v : Verb) (o : Option String) (h : o.getD "IPOPT" = "IPOPT" ∨ o.getD "IPOPT" = "SNOPT") (c : Option Bool) (n : Option ℤ) :
    Dict.get? (addDriver v o c n).options "print_results" =
      (match v with | .quiet => some (.b false) | .brief => some (.s "minimal") | .verbose => some (.s "minimal") | .debug => none) := by
  unfold addDriver
  dsimp only
  rcases h with h | h
  · rw [if_neg (by rw [h]; decide), if_pos h]
    cases v <;> simp [Dict.get?, printOptions, debugOptions]
  · rw [if_pos h]
    cases v <;> simp [Dict.get?, printOptions, debugOptions]

/-! ## Range of the design -/

theorem npMax_spec (l : List ℚ) : (npMax l = .error .valueError ↔ l = []) ∧ ∀ m, npMax l = .ok m → m ∈ l ∧ ∀ x ∈ l, x ≤ m := by
  cases l with
  | nil => simp [npMax]
  | cons a l =>
    refine ⟨by simp [npMax], fun m hm => ?_⟩
    simp only [npMax, Except.ok.injEq] at hm
    subst hm
    induction l generalizing a with
    | nil => simp
    | cons b l ih =>
      obtain ⟨h1, h2⟩ := ih (max a b)
      simp only [List.foldl_cons]
      refine ⟨?_, ?_⟩
      · rcases List.mem_cons.1 h1 with h | h
        · rw [h]
          rcases max_choice a b with e | e <;> rw [e] <;> simp
        · simp [h]
      · have hm := h2 _ (List.mem_cons_self ..)
        intro x hx
        simp only [List.mem_cons] at hx
        rcases hx with rfl | rfl | hx
        · exact (le_max_left _ _).trans hm
        · exact (le_max_right _ _).trans hm
        · exact h2 x (List.mem_cons_of_mem _ hx)

theorem rangesOf_mem (db : UnitDB) (ms : List String) (d : Dict String (Option (ℚ × String))) (l : List ℚ) (h : rangesOf db ms d = .ok l) (y : ℚ) :
    y ∈ l ↔ ∃ n x u, (n, some (x, u)) ∈ d ∧ n ∈ ms ∧ convertUnits db x u "nmi" = .ok y := by
  induction d generalizing l with
  | nil => cases h; simp
  | cons q d ih =>
    obtain ⟨n, t⟩ := q
    unfold rangesOf at h
    by_cases hn : n ∈ ms
    · rw [if_pos hn] at h
      cases t with
      | none => cases h
      | some p =>
        obtain ⟨x, u⟩ := p
        dsimp only at h
        cases hc : convertUnits db x u "nmi" with
        | error e => rw [hc] at h; cases h
        | ok z =>
          rw [hc] at h
          dsimp only at h
          cases hr : rangesOf db ms d with
          | error e => rw [hr] at h; cases h
          | ok ys =>
            rw [hr] at h
            cases h
            rw [List.mem_cons, ih ys hr]
            constructor
            · rintro (rfl | ⟨n', x', u', h1, h2, h3⟩)
              · exact ⟨n, x, u, List.mem_cons_self .., hn, hc⟩
              · exact ⟨n', x', u', List.mem_cons_of_mem _ h1, h2, h3⟩
            · rintro ⟨n', x', u', h1, h2, h3⟩
              rcases List.mem_cons.1 h1 with e | h1
              · cases e
                rw [hc] at h3
                cases h3
                exact .inl rfl
              · exact .inr ⟨n', x', u', h1, h2, h3⟩
    · rw [if_neg hn] at h
      rw [ih l h]
      constructor
      · rintro ⟨n', x', u', h1, h2, h3⟩
        exact ⟨n', x', u', List.mem_cons_of_mem _ h1, h2, h3⟩
      · rintro ⟨n', x', u', h1, h2, h3⟩
        rcases List.mem_cons.1 h1 with e | h1
        · cases e; exact (hn h2).elim
        · exact ⟨n', x', u', h1, h2, h3⟩

/-- The range of the design is the range of one of the missions named, and none of them flies further. -/
theorem designRange_spec (db : UnitDB) (ms : List String) (d : Dict String (Option (ℚ × String))) (r : ℚ) (h : designRange db ms d = .ok r) :
    (∃ n x u, (n, some (x, u)) ∈ d ∧ n ∈ ms ∧ convertUnits db x u "nmi" = .ok r) ∧
    ∀ n x u y, (n, some (x, u)) ∈ d → n ∈ ms → convertUnits db x u "nmi" = .ok y → y ≤ r := by
  unfold designRange at h
  cases hl : rangesOf db ms d with
  | error e => rw [hl] at h; cases h
  | ok l =>
    rw [hl] at h
    obtain ⟨h1, h2⟩ := (npMax_spec l).2 r h
    exact ⟨(rangesOf_mem db ms d l hl r).1 h1, fun n x u y a b c => h2 y ((rangesOf_mem db ms d l hl y).2 ⟨n, x, u, a, b, c⟩)⟩

/-- A named mission without target is an error; names that are no mission are not. -/
theorem designRange_error (db : UnitDB) (ms : List String) (d : Dict String (Option (ℚ × String))) :
    ((∀ n ∈ d.keys, n ∉ ms) → designRange db ms d = .error .valueError) ∧
    (∀ n, (n, none) ∈ d → n ∈ ms → ∃ e, designRange db ms d = .error e) := by
  constructor
  · intro h
    have : rangesOf db ms d = .ok [] := by
      induction d with
      | nil => rfl
      | cons q d ih =>
        obtain ⟨n, t⟩ := q
        unfold rangesOf
        rw [if_neg (h n (by simp [Dict.keys]))]
        exact ih (fun n hn => h n (by simp only [Dict.keys, List.map_cons, List.mem_cons] at hn ⊢; exact .inr hn))
    simp [designRange, this, npMax]
  · intro n hn hm
    have : ∃ e, rangesOf db ms d = .error e := by
      induction d with
      | nil => cases hn
      | cons q d ih =>
        obtain ⟨k, t⟩ := q
        unfold rangesOf
        rcases List.mem_cons.1 hn with e | hn
        · cases e
          rw [if_pos hm]
          exact ⟨_, rfl⟩
        · obtain ⟨e, he⟩ := ih hn
          rw [he]
          split_ifs
          · cases t with
            | none => exact ⟨_, rfl⟩
            | some p =>
              obtain ⟨x, u⟩ := p
              dsimp only
              cases convertUnits db x u "nmi" with
              | error e => exact ⟨_, rfl⟩
              | ok y => exact ⟨_, rfl⟩
          · exact ⟨_, rfl⟩
    obtain ⟨e, he⟩ := this
    exact ⟨e, by simp [designRange, he]⟩

/-- A mission whose name is misspelt is left out without a message. -/
theorem designRange_unknown_violated (db : UnitDB) (ms : List String) (n : String) (d : Dict String (Option (ℚ × String))) (hn : n ∉ d.keys) :
    designRange db (n :: ms) d = designRange db ms d := by
  have : rangesOf db (n :: ms) d = rangesOf db ms d := by
    induction d with
    | nil => rfl
    | cons q d ih =>
      obtain ⟨k, t⟩ := q
      simp only [Dict.keys, List.map_cons, List.mem_cons, not_or] at hn
      have ih' := ih (by simpa [Dict.keys] using hn.2)
      unfold rangesOf
      have : k ∈ n :: ms ↔ k ∈ ms := by
        rw [List.mem_cons]
        exact ⟨fun h => h.resolve_left (fun e => hn.1 e.symm), .inr⟩
      simp only [this, ih']
  simp only [designRange, this]

/-- Inputs are promoted once for every time an existing mission is named, never for another name. -/
theorem promoteInputs_spec {α : Type} (gs ms : List String) (hg : gs.Nodup) (x : α) (n : String) :
    ((promoteInputs gs ms x).filter (fun c => c.1 = n)).length = if n ∈ gs then ms.count n else 0 := by
  have h0 : ∀ (k : String) (l : List String), (List.filter (fun c : String × α => c.1 = n) ((l.filter (fun m => k = m)).map (fun m => (m, x)))).length =
      if k = n then l.count n else 0 := by
    intro k l
    induction l with
    | nil => simp
    | cons a l ih =>
      by_cases h1 : k = a
      · subst h1
        by_cases h2 : k = n
        · subst h2; simpa using ih
        · simp [h2]
      · by_cases h2 : k = n
        · subst h2
          simp only [if_true] at ih ⊢
          rw [List.count_cons_of_ne (fun e => h1 e.symm), ← ih]
          simp [h1]
        · simp only [h2, if_false] at ih ⊢
          rw [← ih]; simp [h1]
  induction gs with
  | nil => rfl
  | cons k gs ih =>
    obtain ⟨h1, h2⟩ := List.nodup_cons.1 hg
    simp only [promoteInputs, List.flatMap_cons, List.filter_append, List.length_append]
    have := ih h2
    unfold promoteInputs at this
    rw [this, h0]
    by_cases hk : k = n
    · subst hk; simp [h1]
    · simp [hk, Ne.symm hk]

/-! ## A run -/

/-- What a run does, exactly: recorder for verbose messages or plotting, one execution, a warning exactly for a failed optimization with
few messages, and the payload-range diagram exactly for a sizing problem that asks for it. -/
theorem run_spec (p : Prob) (v : Option ℤ) (s d r ok : Bool) (l : List Event) (h : run p v s d r ok = .ok l) :
    ∃ w, overrideVerbosity p.verb v = .ok (some w) ∧
    (.recorder ∈ l ↔ 2 ≤ w.toInt ∨ r = true) ∧ (.plotHook ∈ l ↔ r = true) ∧ (.quietSolvers ∈ l ↔ s = true) ∧
    (.optimize ∈ l ↔ d = true) ∧ (.runModel ∈ l ↔ d = false) ∧ (.warn ∈ l ↔ d = true ∧ ok = false ∧ w.toInt ≤ 1) ∧
    (.payloadRange ∈ l ↔ p.payload = true ∧ p.ptype = some .sizing) ∧ (.inputList ∈ l ↔ 2 ≤ w.toInt) ∧ (.outputList ∈ l ↔ 2 ≤ w.toInt) ∧
    .n2 ∈ l ∧ l.Nodup := by
  unfold run at h
  cases hv : overrideVerbosity p.verb v with
  | error e => rw [hv] at h; cases h
  | ok w =>
    rw [hv] at h
    cases w with
    | none => cases h
    | some w =>
      refine ⟨w, rfl, ?_⟩
      simp only [Except.ok.injEq] at h
      have hp : ∀ b : Bool, (p.payload && decide (p.ptype = some .sizing)) = b → ((p.payload = true ∧ p.ptype = some .sizing) ↔ b = true) := by
        intro b hb; subst hb; simp
      generalize hb : (p.payload && decide (p.ptype = some .sizing)) = b at h
      rw [hp b hb]
      subst h
      revert w s d r ok b
      intro s d r ok w
      cases w <;> cases s <;> cases d <;> cases r <;> cases ok <;> intro _ b <;> cases b <;> simp [Verb.toInt]

/-- A problem without verbosity cannot be run. -/
theorem run_error (p : Prob) (s d r ok : Bool) (h : p.verb = none) : run p none s d r ok = .error .typeError := by
  simp [run, overrideVerbosity, h]

/-- The payload-range diagram is never made for several missions, whatever their settings. -/
theorem payload_multi_violated (p : Prob) (hp : p.ptype = some .multiMission) (v : Option ℤ) (s d r ok : Bool) (l : List Event)
    (h : run p v s d r ok = .ok l) : Event.payloadRange ∉ l := by
  obtain ⟨w, _, _, _, _, _, _, _, hq, _⟩ := run_spec p v s d r ok l h
  rw [hq, hp]
  simp

/-- Two missions, the longer one second. -/
def exRanges : Dict String (Option (ℚ × String)) := [("a", some (1000, "nmi")), ("b", some (1500, "nmi")), ("c", none)]

/-- Nautical miles. -/
def exNmi : UnitDB := fun s => if s = "nmi" then some ⟨1, 1852, 0⟩ else none

example : designRange exNmi ["a", "b", "x"] exRanges = .ok 1500 := by
  have h : ∀ x, convertUnits exNmi x "nmi" "nmi" = .ok x := by
    intro x; simp [convertUnits, exNmi]
  simp [designRange, rangesOf, exRanges, h, npMax]; norm_num

example : ∃ p q, (Prob.new (some .multiMission) none).addGroup "a" .brief none = .ok p ∧ p.addGroup "b" .brief none = .ok q ∧
    ∃ r, q.build none = .ok r ∧ r.groups.keys = ["a", "b"] := ⟨_, _, rfl, rfl, _, rfl, rfl⟩

example : ∃ l, run (Prob.new (some .sizing) (some .brief)) none true true false false = .ok l ∧ l = [.quietSolvers, .optimize, .warn, .n2] :=
  ⟨_, rfl, rfl⟩

/-- Whatever the verbosity, the coloring and the number of iterations, each optimizer gets its own tolerances. -/
theorem driver_tolerances (v : Verb) (c : Option Bool) (n : Option ℤ) :
    (addDriver v (some "SNOPT") c n).settings.get? "Major optimality tolerance" = some (.f (1 / 10000)) ∧
    (addDriver v (some "SNOPT") c n).settings.get? "Major feasibility tolerance" = some (.f (1 / 1000000)) ∧
    (addDriver v (some "IPOPT") c n).settings.get? "tol" = some (.f (1 / 1000000)) ∧
    (addDriver v (some "IPOPT") c n).settings.get? "mu_init" = some (.f (1 / 100000)) ∧
    (addDriver v (some "SLSQP") c n).options.get? "tol" = some (.f (1 / 1000000000)) ∧
    (addDriver v none c n).settings = (addDriver v (some "IPOPT") c n).settings := by
  unfold addDriver
  cases v <;> simp [snopt, ipopt, Dict.get?]

/-- A file that does not ask for the payload-range diagram gets none, and a new group starts without warnings, subsystems and steps. -/
theorem new_plain (t : Option PType) (v : Option Verb) (ft : PType) (fv : Verb) (w : Option ℤ) (s d r ok : Bool) (l : List Event)
    (h : run ((Prob.new t v).loadInputs ft fv none) w s d r ok = .ok l) (metas : List String) :
    Event.payloadRange ∉ l ∧ (Grp.new metas).loaded.warned = 0 ∧ (Grp.new metas).loaded.metas = metas ∧
    (Grp.new metas).loaded.engines = [] ∧ (Grp.new metas).loaded.externals = [] ∧ (Grp.new metas).subsystems = [] ∧
    (Grp.new metas).steps = [] := by
  obtain ⟨_, _, _, _, _, _, _, _, hp, _⟩ := run_spec _ _ _ _ _ _ _ h
  refine ⟨fun hl => ?_, rfl, rfl, rfl, rfl, rfl, rfl⟩
  have := (hp.1 hl).1
  simp [Prob.loadInputs, Prob.new] at this

example : ∃ l, run ((Prob.new (some .sizing) none).loadInputs .sizing .brief none) none true true false false = .ok l := ⟨_, rfl⟩

end Verif.ProblemSteps
