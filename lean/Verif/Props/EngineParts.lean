import Verif.Model.EngineParts
import Verif.Props.PropMission
import Mathlib.Algebra.Order.Field.Basic
import Mathlib.Tactic.Linarith
import Mathlib.Tactic.FieldSimp
import Mathlib.Tactic.Ring

/-! ## C137: engines composed of parts, and the battery -/

namespace Verif.EngineParts

open PropMission (update update_get? update_keys update_nodup)

variable {α β : Type}

/-- The parts that are there, in the order in which they are asked. -/
def parts (e : Engine α) : List (Part α) := e.shaft.toList ++ e.gearbox.toList ++ e.propeller.toList

theorem collect_eq (get : Part α → Dict String β) (e : Engine α) :
    collect get e = PropMission.combine ((parts e).map get) := by
  obtain ⟨a, b, c⟩ := e
  cases a <;> cases b <;> cases c <;> rfl

/-- **Property.**  What the engine answers under a name is what the last of its parts with that name answers: the propeller, else
the gearbox, else the model of shaft power. -/
theorem collect_get? (get : Part α → Dict String β) (e : Engine α) (h : ∀ p ∈ parts e, (get p).keys.Nodup) (k : String) :
    (collect get e).get? k =
      ((e.propeller.bind fun p => (get p).get? k).or ((e.gearbox.bind fun p => (get p).get? k).or
        (e.shaft.bind fun p => (get p).get? k))) := by
  obtain ⟨a, b, c⟩ := e
  cases a <;> cases b <;> cases c <;> simp only [parts, Option.toList, List.nil_append, List.append_nil, List.cons_append,
      List.mem_cons, List.not_mem_nil, or_false, forall_eq_or_imp, forall_eq] at h <;>
    simp [collect, updPart, update_get?, h]

/-- **Property.**  The names are exactly those of the parts, each once. -/
theorem collect_keys (get : Part α → Dict String β) (e : Engine α) :
    (collect get e).keys.Nodup ∧ ∀ k, k ∈ (collect get e).keys ↔ ∃ p ∈ parts e, k ∈ (get p).keys := by
  rw [collect_eq]
  obtain ⟨h1, h2⟩ := PropMission.combine_keys ((parts e).map get)
  exact ⟨h1, fun k => by rw [h2]; simp⟩

/-- After construction all three parts are there, those given by the user first. -/
theorem init_parts (deck gear prop : Part α) (a b c : Option (Part α)) :
    parts (init deck gear prop a b c) = [a.getD deck, b.getD gear, c.getD prop] := rfl

/-- **Property.**  The rotational speed is never a control under its own name; its entry is found under the name with the suffix,
all other controls are those of the parts. -/
theorem controls_get? (e : Engine α) (k : String) : (controls e).get? k =
    if k = rpm then none
    else if k = rpm ++ "_control" then ((collect Part.controls e).get? rpm).or ((collect Part.controls e).get? k)
    else (collect Part.controls e).get? k := by
  have hn := (collect_keys Part.controls e).1
  have hne : rpm ++ "_control" ≠ rpm := by decide
  unfold controls
  simp only
  cases hc : (collect Part.controls e).get? rpm with
  | none =>
    simp only
    split
    · rename_i hk
      rw [hk, hc]
    · split <;> simp
  | some v =>
    simp only
    rw [Dict.get?_set]
    by_cases h1 : k = rpm
    · subst h1
      rw [if_pos rfl, if_neg hne, Dict.get?_erase _ hn]
      simp
    · rw [if_neg h1]
      by_cases h2 : k = rpm ++ "_control"
      · subst h2
        simp
      · rw [if_neg (fun e => h2 e.symm), if_neg h2, Dict.get?_erase _ hn]
        simp [Ne.symm h1]

/-- A guess for a control is for a control of the engine, if it is not for the rotational speed. -/
theorem guess_control_partial (e : Engine α) {p : Part α} (hp : p ∈ parts e) {k : String} (hk : k ≠ rpm)
    (hg : k ∈ p.guesses.keys) (hc : k ∈ p.controls.keys) :
    k ∈ (collect Part.guesses e).keys ∧ k ∈ (controls e).keys := by
  refine ⟨((collect_keys _ e).2 k).2 ⟨p, hp, hg⟩, ?_⟩
  have : k ∈ (collect Part.controls e).keys := ((collect_keys _ e).2 k).2 ⟨p, hp, hc⟩
  rw [← Dict.get?_isSome_iff] at this ⊢
  rw [controls_get?, if_neg hk]
  split
  · cases h : (collect Part.controls e).get? rpm with
    | none => simpa using this
    | some v => rfl
  · exact this

/-- **Violated.**  The guess for the rotational speed keeps the name that the control loses, for all engines with a part that
has both. -/
theorem guess_rpm_violated (e : Engine α) {p : Part α} (hp : p ∈ parts e) (hg : rpm ∈ p.guesses.keys) :
    rpm ∈ (collect Part.guesses e).keys ∧ rpm ∉ (controls e).keys := by
  refine ⟨((collect_keys _ e).2 _).2 ⟨p, hp, hg⟩, ?_⟩
  rw [← Dict.get?_eq_none_iff, controls_get?, if_pos rfl]

/-- A motor whose speed is a control with a guess. -/
def motor : Part ℚ := { name := "motor", controls := [(rpm, 0)], guesses := [(rpm, 6000)] }

example : rpm ∈ (collect Part.guesses ⟨some motor, none, none⟩).keys ∧ rpm ∉ (controls ⟨some motor, none, none⟩).keys ∧
    rpm ++ "_control" ∈ (controls ⟨some motor, none, none⟩).keys :=
  have h := guess_rpm_violated ⟨some motor, none, none⟩ (p := motor) (by simp [parts]) (by decide)
  ⟨h.1, h.2, by decide +kernel⟩

/-- **Violated.**  Variables to be carried to the analysis after the mission are given by phase; a part with an entry for a phase
replaces all that the parts before it had for that phase. -/
theorem postBus_violated : ∃ (e : Engine ℚ) (p : Part ℚ) (d : Dict String ℚ), p ∈ parts e ∧
    p.postBus.get? "cruise" = some d ∧ d.get? "energy" = some 1 ∧
    ∃ d', (collect Part.postBus e).get? "cruise" = some d' ∧ d'.get? "energy" = none := by
  refine ⟨⟨some { name := "motor", postBus := [("cruise", [("energy", 1)])] }, none,
      some { name := "propeller", postBus := [("cruise", [("noise", 2)])] }⟩,
    { name := "motor", postBus := [("cruise", [("energy", 1)])] }, [("energy", 1)], by simp [parts], rfl, rfl, [("noise", 2)], ?_, rfl⟩
  rfl

/-- A phase that only one part has entries for keeps all of them. -/
theorem postBus_partial (e : Engine α) (h : ∀ p ∈ parts e, p.postBus.keys.Nodup) {p : Part α} (hp : p ∈ parts e) {ph : String}
    {d : Dict String α} (hd : p.postBus.get? ph = some d)
    (hu : ∀ q ∈ parts e, ∀ d', q.postBus.get? ph = some d' → d' = d) : (collect Part.postBus e).get? ph = some d := by
  rw [collect_get? _ _ h]
  have key : ∀ o : Option (Part α), (∀ q ∈ o, q ∈ parts e) →
      (o.bind fun q => q.postBus.get? ph) = none ∨ (o.bind fun q => q.postBus.get? ph) = some d := by
    intro o ho
    cases o with
    | none => exact .inl rfl
    | some q =>
      cases hq : q.postBus.get? ph with
      | none => exact .inl (by simpa using hq)
      | some d' => exact .inr (by simpa using hq.trans (congrArg some (hu q (ho q rfl) d' hq)))
  have k1 := key e.shaft (fun q hq => by simp [parts, Option.mem_def.1 hq])
  have k2 := key e.gearbox (fun q hq => by simp [parts, Option.mem_def.1 hq])
  have k3 := key e.propeller (fun q hq => by simp [parts, Option.mem_def.1 hq])
  simp only [parts, List.mem_append, Option.mem_toList] at hp
  rcases hp with (hp | hp) | hp
  · have : (e.shaft.bind fun q => q.postBus.get? ph) = some d := by rw [hp]; exact hd
    rcases k2 with k2 | k2 <;> rcases k3 with k3 | k3 <;> rw [this, k2, k3] <;> rfl
  · have : (e.gearbox.bind fun q => q.postBus.get? ph) = some d := by rw [hp]; exact hd
    rcases k1 with k1 | k1 <;> rcases k3 with k3 | k3 <;> rw [this, k1, k3] <;> rfl
  · have : (e.propeller.bind fun q => q.postBus.get? ph) = some d := by rw [hp]; exact hd
    rcases k1 with k1 | k1 <;> rcases k2 with k2 | k2 <;> rw [this, k1, k2] <;> rfl

/-! ### Names -/

/-- **Property.**  Linked variables, masses and time series are those of the parts, one after the other. -/
theorem names_eq (get : Part α → List String) (e : Engine α) : names get e = (parts e).flatMap get := by
  obtain ⟨a, b, c⟩ := e
  cases a <;> cases b <;> cases c <;> simp [names, addPart, parts]

/-- **Property.**  The engine needs a solver exactly if one of its parts does. -/
theorem needsSolver_iff (e : Engine α) : needsSolver e = true ↔ ∃ p ∈ parts e, p.solver = true := by
  obtain ⟨a, b, c⟩ := e
  cases a <;> cases b <;> cases c <;> simp [needsSolver, parts, or_assoc]

/-- **Violated.**  The masses of all engines cannot be collected as soon as one of them has the gearbox built by default. -/
theorem gear_mass_violated (engines : List (Engine α)) {e : Engine α} (he : e ∈ engines) {g : Part α} (hg : e.gearbox = some g)
    (hm : g.massNames = gearMassNames) :
    ¬∃ r, PropMission.collectNames (engines.map (names Part.massNames)) = .ok r := by
  rw [PropMission.collectNames_ok_iff]
  intro h
  have := h _ (List.mem_map_of_mem he) "aircraft:engine:gearbox:mass" (by
    rw [names_eq, List.mem_flatMap]
    exact ⟨g, by simp [parts, hg], by rw [hm]; simp [gearMassNames]⟩)
  revert this
  decide

/-- **Property.**  The inputs can be preprocessed exactly if neither gearbox nor propeller has a mass; then what the model of shaft
power made of them is kept. -/
theorem preprocess_ok_iff (e : Engine α) (d r : Dict String α) : preprocess e d = .ok r ↔
    (∀ p ∈ e.gearbox, p.massNames = []) ∧ (∀ p ∈ e.propeller, p.massNames = []) ∧
      r = (match e.shaft with | none => d | some p => update d (p.preprocess d)) := by
  have key : ∀ (x : Dict String α) l r, updateByNames x l = .ok r ↔ l = [] ∧ r = x := by
    intro x l r
    cases l with
    | nil => simp [updateByNames, eq_comm]
    | cons _ _ => simp [updateByNames]
  obtain ⟨a, b, c⟩ := e
  unfold preprocess
  cases a <;> simp only
  all_goals
    cases b with
    | none =>
      cases c with
      | none => simp [bind, Except.bind, pure, Except.pure, eq_comm]
      | some q => simp [bind, Except.bind, pure, Except.pure, key]
    | some p =>
      cases hp : p.massNames with
      | nil =>
        cases c with
        | none => simp [bind, Except.bind, pure, Except.pure, updateByNames, hp, eq_comm]
        | some q => cases hq : q.massNames <;> simp [bind, Except.bind, updateByNames, hp, hq, eq_comm]
      | cons n l => simp [bind, Except.bind, updateByNames, hp]

/-- **Violated.**  With the gearbox built by default the inputs can never be preprocessed. -/
theorem preprocess_violated (deck gear prop : Part α) (a c : Option (Part α)) (hm : gear.massNames = gearMassNames)
    (d r : Dict String α) : preprocess (init deck gear prop a none c) d ≠ .ok r := by
  rw [Ne, preprocess_ok_iff]
  rintro ⟨h, -⟩
  have := h gear rfl
  rw [hm] at this
  cases this

/-- **Violated.**  The old name of the method for bus variables always raises, whatever the parts. -/
theorem busVariables_violated (e : Engine α) (r : Dict String α) : busVariables e ≠ .ok r := by
  unfold busVariables
  simp

/-! ### Systems before and after the mission -/

theorem addSystem_ok {g : List (String × α)} {n : String} (h : n ∉ g.map Prod.fst) (o : Option α) :
    addSystem g n o = .ok (g ++ (o.map fun s => (n, s)).toList) := by
  cases o with
  | none => simp [addSystem]
  | some s =>
    have : g.any (fun q => q.1 == n) = false := by
      rw [Bool.eq_false_iff]
      intro h'
      obtain ⟨q, hq, e⟩ := List.any_eq_true.1 h'
      exact h (List.mem_map.2 ⟨q, hq, by simpa using e⟩)
    simp [addSystem, this]

/-- **Property.**  Before the mission, the parts with distinct names give their systems, in order, each under its name; an engine
deck is left out. -/
theorem buildPre_spec {s b p : Part α} (h1 : s.name ≠ b.name) (h2 : s.name ≠ p.name) (h3 : b.name ≠ p.name) :
    buildPre ⟨some s, some b, some p⟩ = .ok
      ([s, b, p].filterMap fun q => if q.isDeck ∧ q.name = s.name then none else q.pre.map fun x => (q.name, x)) := by
  unfold buildPre need
  simp only [bind, Except.bind, pure, Except.pure]
  cases hd : s.isDeck
  · simp only [Bool.false_eq_true, if_false]
    rw [addSystem_ok (by simp)]
    simp only
    rw [addSystem_ok (by cases s.pre <;> simp [Ne.symm h1])]
    simp only
    rw [addSystem_ok (by cases s.pre <;> cases b.pre <;> simp [Ne.symm h2, Ne.symm h3])]
    cases e1 : s.pre <;> cases e2 : b.pre <;> cases e3 : p.pre <;> simp [hd, Ne.symm h1, Ne.symm h2, e1, e2, e3]
  · simp only [if_true]
    rw [addSystem_ok (by simp)]
    simp only
    rw [addSystem_ok (by cases b.pre <;> simp [Ne.symm h3])]
    cases e2 : b.pre <;> cases e3 : p.pre <;> simp [hd, Ne.symm h1, Ne.symm h2, e2, e3]

/-- **Property.**  After the mission all parts with distinct names give their systems. -/
theorem buildPost_spec {s b p : Part α} (h1 : s.name ≠ b.name) (h2 : s.name ≠ p.name) (h3 : b.name ≠ p.name) :
    buildPost ⟨some s, some b, some p⟩ = .ok ([s, b, p].filterMap fun q => q.post.map fun x => (q.name, x)) := by
  unfold buildPost need
  simp only [bind, Except.bind]
  rw [addSystem_ok (by simp)]
  simp only
  rw [addSystem_ok (by cases s.post <;> simp [Ne.symm h1])]
  simp only
  rw [addSystem_ok (by cases s.post <;> cases b.post <;> simp [Ne.symm h2, Ne.symm h3])]
  cases e1 : s.post <;> cases e2 : b.post <;> cases e3 : p.post <;> simp [e1, e2, e3]

example : buildPre (α := ℚ) ⟨some { name := "engine_deck", isDeck := true, pre := some 1 },
    some { name := "gearbox", pre := some 2 }, some { name := "propeller" }⟩ = .ok [("gearbox", 2)] :=
  buildPre_spec (by decide) (by decide) (by decide)

/-- Two parts of the same name cannot be built. -/
example : buildPost (α := ℚ) ⟨some { name := "a", post := some 1 }, some { name := "a", post := some 2 },
    some { name := "propeller" }⟩ = .error .runtimeError := rfl

/-! ### Battery -/

/-- **Property.**  The state of charge is one before energy is used and falls with the energy used; the constraint at the end holds exactly
if at most four fifths of the capacity of the pack, reduced by the efficiency, were used. -/
theorem soc_spec {pack density eff : ℚ} (hp : 0 < pack) (hd : 0 < density) (he : 0 < eff) :
    soc (capacity pack density) 0 eff = .ok 1 ∧
    (∀ u v a b, u < v → soc (capacity pack density) u eff = .ok a → soc (capacity pack density) v eff = .ok b → b < a) ∧
    ∀ u, ∃ a, soc (capacity pack density) u eff = .ok a ∧
      (charged a = true ↔ u ≤ 4 / 5 * (pack * density) * eff) ∧ (a ≤ 1 ↔ 0 ≤ u) := by
  have hc : 0 < capacity pack density := mul_pos hp hd
  have hne : ¬(eff = 0 ∨ capacity pack density = 0) := by
    rintro (h | h)
    · exact he.ne' h
    · exact hc.ne' h
  have ok : ∀ u, soc (capacity pack density) u eff = .ok (1 - u / (eff * capacity pack density)) := by
    intro u
    unfold soc
    rw [if_neg hne]
    congr 1
    have := he.ne'
    have := hc.ne'
    field_simp
  have hec : 0 < eff * capacity pack density := mul_pos he hc
  refine ⟨?_, ?_, ?_⟩
  · rw [ok]
    simp
  · intro u v a b huv ha hb
    rw [ok] at ha hb
    obtain rfl := Except.ok.inj ha
    obtain rfl := Except.ok.inj hb
    have := div_lt_div_of_pos_right huv hec
    linarith
  · intro u
    refine ⟨_, ok u, ?_, ?_⟩
    · unfold charged
      rw [decide_eq_true_iff]
      constructor
      · intro h
        have : u / (eff * capacity pack density) ≤ 4 / 5 := by linarith
        rw [div_le_iff₀ hec] at this
        unfold capacity at this
        linarith
      · intro h
        have : u / (eff * capacity pack density) ≤ 4 / 5 := by
          rw [div_le_iff₀ hec]
          unfold capacity
          linarith
        linarith
    · constructor
      · intro h
        have : 0 ≤ u / (eff * capacity pack density) := by linarith
        rcases lt_or_ge u 0 with hu | hu
        · exact absurd (div_neg_of_neg_of_pos hu hec) (not_lt.2 this)
        · exact hu
      · intro h
        have := div_nonneg h hec.le
        linarith

/-- Without a battery pack, the value of the parameter by default, there is no state of charge. -/
theorem soc_empty (density used eff : ℚ) : soc (capacity 0 density) used eff = .error .zeroDivision := by
  simp [soc, capacity]

end Verif.EngineParts
