import Verif.Model.MissionParams
import Verif.Props.Builders
import Mathlib.Tactic.FinCases

/-!
C119.  Which aircraft-level inputs of the mission groups are parameters of the trajectory, and so see the user's value.
-/

namespace Verif.MissionParams

open Verif.Builders

/-- Names of a list of parameters. -/
def names (p : List (String × Src)) : List String := p.map (·.1)

theorem names_append (p q : List (String × Src)) : names (p ++ q) = names p ++ names q := List.map_append

theorem names_valueOf (i : Inputs) (l : List String) : names (l.map (valueOf i)) = l := by
  simp only [names, List.map_map]
  exact (List.map_congr_left (fun x _ => rfl)).trans (List.map_id l)

/-- Variables the GASP groups read and no list of `get_parameters` contains. -/
def gaspMissing : List String :=
  ["aircraft:fuselage:drag_factor", "aircraft:horizontal_tail:drag_factor", "aircraft:design:interference_drag_factor",
   "aircraft:nacelle:drag_factor", "aircraft:nacelle:pylon_drag_factor", "aircraft:strut:drag_factor",
   "aircraft:vertical_tail:drag_factor", "aircraft:wing:drag_factor", "aircraft:design:excrescence_drag_factor",
   "aircraft:design:percent_excrescence_drag", "aircraft:design:compressibility_drag_factor"]

/-! ### The lists -/

theorem cruise_lists : ∀ bwb flag : Bool, ∀ v ∈ cruiseIn bwb flag,
    (v ∈ aero2dof ++ aeroClean ++ (if bwb then bwbExtra else []) ↔ v ∉ gaspMissing) := by decide +kernel

theorem lowSpeed_lists : ∀ bwb flag : Bool, ∀ v ∈ lowSpeedIn bwb flag,
    (v ∈ aero2dof ++ aeroLs ++ (if bwb then bwbExtra else []) ↔ v ∉ gaspMissing) := by decide +kernel

theorem missing_lists : ∀ bwb : Bool, ∀ v ∈ gaspMissing,
    v ∉ aero2dof ++ aeroClean ++ aeroLs ++ (if bwb then bwbExtra else []) := by decide +kernel

/-- Names of the parameters of the GASP aerodynamics for the two computed methods. -/
theorem gasp_names (i : Inputs) (o : Opts) (p : List (String × Src)) (h : getParameters .gasp i (some o) = .ok p) :
    ((o.method = none ∨ o.method = some "cruise") → ∀ v, v ∈ names p ↔
      v ∈ aero2dof ++ aeroClean ++ (if i.bwb then bwbExtra else [])) ∧
    (o.method = some "low_speed" → ∀ v, v ∈ names p ↔ v ∈ aero2dof ++ aeroLs ++ (if i.bwb then bwbExtra else [])) := by
  have hc : ¬ ("tabular".toList <:+: "cruise".toList) := by decide +kernel
  have hl : ¬ ("tabular".toList <:+: "low_speed".toList) := by decide +kernel
  simp only [getParameters, Option.getD_some] at h
  constructor
  · intro hm v
    have e : o.method.getD "cruise" = "cruise" := by rcases hm with e | e <;> simp [e]
    have he : o.method ≠ some "external" := by rcases hm with e | e <;> simp [e]
    simp only [he, if_false, paramsGasp, e, hc, and_false] at h
    by_cases hb : i.bwb = true
    · simp [hb] at h
      subst h
      simp [names_valueOf, hb, or_assoc]
    · simp [hb] at h
      subst h
      simp [names_valueOf, hb]
  · intro hm v
    simp only [if_false, paramsGasp, hm, Option.getD_some, hl, and_false] at h
    by_cases hb : i.bwb = true
    · simp [hb] at h
      subst h
      simp [names_valueOf, hb, or_assoc]
    · simp [hb] at h
      subst h
      simp [names_valueOf, hb]

/-- What the group built for the default or the `cruise` method reads is a parameter exactly when it is not one of the eleven
missing drag factors. -/
theorem cruise_covered_iff (i : Inputs) (o : Opts) (p : List (String × Src)) (hp : getParameters .gasp i (some o) = .ok p)
    (hm : o.method = none ∨ o.method = some "cruise") (flag : Bool) (n : Counts) :
    ∀ v ∈ groupIn .cruise i.bwb flag n, (v ∈ names p ↔ v ∉ gaspMissing) := fun v hv =>
  ((gasp_names i o p hp).1 hm v).trans (cruise_lists i.bwb flag v hv)

theorem lowSpeed_covered_iff (i : Inputs) (o : Opts) (p : List (String × Src)) (hp : getParameters .gasp i (some o) = .ok p)
    (hm : o.method = some "low_speed") (flag : Bool) (n : Counts) :
    ∀ v ∈ groupIn .lowSpeed i.bwb flag n, (v ∈ names p ↔ v ∉ gaspMissing) := fun v hv =>
  ((gasp_names i o p hp).2 hm v).trans (lowSpeed_lists i.bwb flag v hv)

/-- All eleven are read in cruise, ten of them at low speed. -/
theorem missing_read (bwb flag : Bool) (n : Counts) : ∀ v ∈ gaspMissing, v ∈ groupIn .cruise bwb flag n ∧
    (v ∈ groupIn .lowSpeed bwb flag n ↔ v ≠ "aircraft:design:compressibility_drag_factor") := by
  have h : ∀ b f : Bool, ∀ v ∈ gaspMissing, v ∈ cruiseIn b f ∧
    (v ∈ lowSpeedIn b f ↔ v ≠ "aircraft:design:compressibility_drag_factor") := by decide +kernel
  exact h bwb flag

/-- The table of GASP in cruise: every input is covered. -/
theorem tabCruise_covered (i : Inputs) (o : Opts) (p : List (String × Src)) (hp : getParameters .gasp i (some o) = .ok p)
    (hm : o.method = some "tabular_cruise") (flag : Bool) (n : Counts) : ∀ v ∈ groupIn .tabCruise i.bwb flag n, v ∈ names p := by
  have hl : ∀ v ∈ tabCruiseIn, v ∈ tabularCore := by decide +kernel
  intro v hv
  have hv' := hl v hv
  simp only [getParameters, Option.getD_some, hm, Option.some.injEq, show ("tabular_cruise" = "external") = False by simp, if_false,
    paramsGasp, show ("tabular_cruise" = "low_speed") = False by simp, show ("tabular_cruise" = "cruise") = False by simp,
    show ("tabular_cruise" = "tabular_low_speed") = False by simp, if_true] at hp
  split at hp
  · cases hp
  · split at hp
    · simp at hp
    · cases hp
      rw [names_append, names_valueOf]
      exact List.mem_append_right _ hv'

/-- At low speed the table reads two variables that are not listed. -/
theorem tabLowSpeed_covered_iff (i : Inputs) (o : Opts) (p : List (String × Src)) (hp : getParameters .gasp i (some o) = .ok p)
    (hm : o.method = some "tabular_low_speed") (hs : solveAlpha o = false) (flag : Bool) (n : Counts) :
    ∀ v ∈ groupIn .tabLowSpeed i.bwb flag n, (v ∈ names p ↔ v ∉ ["aircraft:design:gross_mass", "aircraft:wing:area"]) := by
  have hl : ∀ v ∈ tabLowSpeedIn, (v ∈ aeroTabLs ↔ v ∉ ["aircraft:design:gross_mass", "aircraft:wing:area"]) := by decide +kernel
  intro v hv
  have hv' := hl v hv
  simp only [getParameters, Option.getD_some, hm, Option.some.injEq, show ("tabular_low_speed" = "external") = False by simp, if_false,
    paramsGasp, show ("tabular_low_speed" = "low_speed") = False by simp, show ("tabular_low_speed" = "cruise") = False by simp,
    if_true, hs, Bool.false_eq_true, false_and] at hp
  split at hp
  · simp at hp
  · cases hp
    rw [names_append, names_valueOf]
    exact (by simp [names] : v ∈ names [] ++ aeroTabLs ↔ v ∈ aeroTabLs).trans hv'

/-! ### FLOPS -/

theorem coreComputed_iff (i : Inputs) (v : String) : v ∈ coreComputed i ↔ v ∈ computedCore ∨ (i.numH ≠ 0 ∧ v ∈ hTail) ∨
    (i.numV ≠ 0 ∧ v ∈ vTail) := by
  have h := coreComputed_bwb i false
  rw [← h]
  simp only [coreComputed, Bool.false_eq_true, if_false]
  by_cases h1 : i.numH = 0 <;> by_cases h2 : i.numV = 0 <;> simp [h1, h2]

theorem five_lists : (∀ v ∈ fiveOf "wing", v ∈ computedCore) ∧ (∀ v ∈ fiveOf "horizontal_tail", v ∈ hTail) ∧
    (∀ v ∈ fiveOf "vertical_tail", v ∈ vTail) ∧ (∀ v ∈ fiveOf "fuselage", v ∈ computedCore) ∧
    (∀ v ∈ fiveOf "nacelle", v ∈ engineSized) := by decide +kernel

theorem rest_lists : ∀ v ∈ liftEqualsWeightIn ++ liftDependentDragIn ++ inducedDragIn ++ compressibilityIn ++ skinFrictionDragIn ++
    totalDragIn ++ buffetIn, v ∈ computedCore := by decide +kernel

/-- FLOPS, computed aerodynamics: every input is a parameter, for every number of tails, fuselages and engines. -/
theorem computed_covered (i : Inputs) (o : Opts) (p : List (String × Src)) (hp : getParameters .flops i (some o) = .ok p)
    (hm : o.method = none ∨ o.method = some "computed") (flag : Bool) (n : Counts) (hH : n.numH = i.numH) (hV : n.numV = i.numV) :
    ∀ v ∈ groupIn .computed i.bwb flag n, v ∈ names p := by
  have e : o.method.getD "computed" = "computed" := by rcases hm with e | e <;> simp [e]
  have he : o.method ≠ some "external" := by rcases hm with e | e <;> simp [e]
  simp only [getParameters, Option.getD_some, he, if_false, paramsFlops, e, if_true, Except.ok.injEq] at hp
  subst hp
  have hn : ∀ v, v ∈ names ((coreComputed i).map (valueOf i) ++ engineSized.map (fun v => (v, Src.sized i.engineTypes))) ↔
      v ∈ coreComputed i ∨ v ∈ engineSized := by
    intro v
    rw [names_append, names_valueOf, List.mem_append]
    simp [names]
  intro v hv
  rw [hn, coreComputed_iff]
  obtain ⟨f1, f2, f3, f4, f5⟩ := five_lists
  have hi : ∀ (c : Prop) [Decidable c] (l : List String), v ∈ (if c then l else []) → c ∧ v ∈ l := by
    intro c _ l h
    split at h
    · exact ⟨‹_›, h⟩
    · cases h
  have hr := rest_lists v
  have hv2 : v ∈ muxIn n ∨ v ∈ liftEqualsWeightIn ++ liftDependentDragIn ++ inducedDragIn ++ compressibilityIn ++ skinFrictionDragIn ++
      totalDragIn ++ buffetIn := by
    rw [← List.mem_append]
    simpa only [groupIn, computedIn, List.append_assoc] using hv
  rcases hv2 with h | h
  · rw [muxIn, List.mem_append, List.mem_append, List.mem_append, List.mem_append] at h
    rcases h with (((h | h) | h) | h) | h
    · exact Or.inl (Or.inl (f1 v h))
    · obtain ⟨hc, h⟩ := hi _ _ h
      exact Or.inl (Or.inr (Or.inl ⟨by omega, f2 v h⟩))
    · obtain ⟨hc, h⟩ := hi _ _ h
      exact Or.inl (Or.inr (Or.inr ⟨by omega, f3 v h⟩))
    · exact Or.inl (Or.inl (f4 v (hi _ _ h).2))
    · exact Or.inr (f5 v (hi _ _ h).2)
  · exact Or.inl (Or.inl (hr h))

theorem takeoff_covered (i : Inputs) (o : Opts) (p : List (String × Src)) (hp : getParameters .flops i (some o) = .ok p)
    (hm : o.method = some "low_speed") (flag : Bool) (n : Counts) : ∀ v ∈ groupIn .takeoff i.bwb flag n, v ∈ names p := by
  have hl : ∀ v ∈ takeoffIn, v ∈ lowSpeedCore := by decide +kernel
  simp [getParameters, hm, paramsFlops] at hp
  subst hp
  intro v hv
  rw [names_valueOf]
  exact hl v hv

/-- FLOPS, tables: the factors of the lift-dependent and of the zero-lift drag are read and not listed. -/
theorem tabular_covered_iff (i : Inputs) (o : Opts) (p : List (String × Src)) (hp : getParameters .flops i (some o) = .ok p)
    (hm : o.method = some "tabular") (flag : Bool) (n : Counts) : ∀ v ∈ groupIn .tabular i.bwb flag n,
    (v ∈ names p ↔ v ∉ ["aircraft:design:lift_dependent_drag_coeff_factor", "aircraft:design:zero_lift_drag_coeff_factor"]) := by
  have hl : ∀ v ∈ tabularIn, (v ∈ tabularCore ↔
      v ∉ ["aircraft:design:lift_dependent_drag_coeff_factor", "aircraft:design:zero_lift_drag_coeff_factor"]) ∧
      v ∉ ["aircraft:design:lift_independent_drag_polar", "aircraft:design:lift_dependent_drag_polar"] := by decide +kernel
  have hpol : ∀ d var k1 k2 q, polarEntry i d var k1 k2 = .ok q → ∀ v ∈ names q, v = var := by
    intro d var k1 k2 q hq v hv
    unfold polarEntry at hq
    split at hq
    · split at hq
      · cases hq; simpa [names] using hv
      · cases hq
    · cases hq; simp [names] at hv
  simp [getParameters, hm, paramsFlops] at hp
  obtain ⟨t, ht, rfl⟩ : ∃ t, flopsTables i o = .ok t ∧ t ++ tabularCore.map (valueOf i) = p := by
    rcases ht : flopsTables i o with e | t
    · rw [ht] at hp; cases hp
    · rw [ht] at hp; exact ⟨t, rfl, by simpa [Except.map] using hp⟩
  have hT : ∀ v ∈ names t, v ∈ ["aircraft:design:lift_independent_drag_polar", "aircraft:design:lift_dependent_drag_polar"] := by
    unfold flopsTables at ht
    split at ht
    · cases ht
    · split at ht
      · cases ht
      · rename_i h1
        split at ht
        · cases ht
        · split at ht
          · cases ht
          · rename_i h2
            cases ht
            intro v hv
            rw [names_append, List.mem_append] at hv
            rcases hv with hv | hv
            · rw [hpol _ _ _ _ _ h1 v hv]; simp
            · rw [hpol _ _ _ _ _ h2 v hv]; simp
  intro v hv
  obtain ⟨h1, h2⟩ := hl v hv
  rw [names_append, names_valueOf, List.mem_append, ← h1]
  exact ⟨fun h => h.resolve_left (fun h' => h2 (hT v h')), Or.inr⟩

/-! ### Values seen by the mission -/

theorem seen_user (ps : List String) (user gd : String → Option ℚ) (md : String → ℚ) (v : String) (x : ℚ) (h : v ∈ ps)
    (hu : user v = some x) : seen ps user gd md v = x := by simp [seen, h, hu]

theorem seen_missing (ps : List String) (user gd : String → Option ℚ) (md : String → ℚ) (v : String) (h : v ∉ ps) :
    seen ps user gd md v = (gd v).getD (md v) := by simp [seen, h]

/-- With FLOPS the computed drag of the mission sees every value of the user. -/
theorem computed_seen (i : Inputs) (o : Opts) (p : List (String × Src)) (hp : getParameters .flops i (some o) = .ok p)
    (hm : o.method = none ∨ o.method = some "computed") (n : Counts) (hH : n.numH = i.numH) (hV : n.numV = i.numV)
    (user gd : String → Option ℚ) (md : String → ℚ) (ps : List String) :
    ∀ v ∈ groupIn .computed i.bwb false n, ∀ x, user v = some x → seen (ps ++ names p) user gd md v = x := fun v hv _ hx =>
  seen_user _ _ _ _ _ _ (List.mem_append_right _ (computed_covered i o p hp hm false n hH hV v hv)) hx

/-- With GASP it sees them except for eleven drag factors. -/
theorem cruise_seen_partial (i : Inputs) (o : Opts) (p : List (String × Src)) (hp : getParameters .gasp i (some o) = .ok p)
    (hm : o.method = none ∨ o.method = some "cruise") (flag : Bool) (n : Counts) (user gd : String → Option ℚ) (md : String → ℚ)
    (ph : Phase) : ∀ v ∈ groupIn .cruise i.bwb flag n, v ∉ gaspMissing → ∀ x, user v = some x →
      seen (ph.params ++ names p) user gd md v = x := fun v hv hn _ hx =>
  seen_user _ _ _ _ _ _ (List.mem_append_right _ ((cruise_covered_iff i o p hp hm flag n v hv).2 hn)) hx

theorem phase_params : ∀ ph : Phase, ∀ v ∈ gaspMissing ++ ["mission:takeoff:rolling_friction_coefficient"], v ∉ ph.params := by
  have h : ∀ l ∈ [(Phase.takeoff true true).params, Phase.flight.params], ∀ v ∈ gaspMissing ++
      ["mission:takeoff:rolling_friction_coefficient"], v ∉ l := by decide +kernel
  intro ph v hv
  rcases ph with ⟨g, r⟩ | _ | _ | _
  · cases g
    · exact h Phase.flight.params (by simp) v hv
    · exact h (Phase.takeoff true true).params (by simp) v hv
  all_goals exact h Phase.flight.params (by simp) v hv

/-- The user's `percent_excrescence_drag` and the ten other factors never reach the mission: whatever the user gives, the phases use
the default of the metadata. -/
theorem cruise_seen_violated (i : Inputs) (o : Opts) (p : List (String × Src)) (hp : getParameters .gasp i (some o) = .ok p)
    (hm : o.method = none ∨ o.method = some "cruise" ∨ o.method = some "low_speed") (user : String → Option ℚ) (md : String → ℚ)
    (ph : Phase) : ∀ v ∈ gaspMissing, seen (ph.params ++ names p) user (fun _ => none) md v = md v := by
  intro v hv
  have h : v ∉ names p := by
    have hx := missing_lists i.bwb v hv
    simp only [List.mem_append, not_or] at hx
    rcases hm with hm | hm | hm
    · rw [(gasp_names i o p hp).1 (Or.inl hm) v]; simp only [List.mem_append, not_or]; tauto
    · rw [(gasp_names i o p hp).1 (Or.inr hm) v]; simp only [List.mem_append, not_or]; tauto
    · rw [(gasp_names i o p hp).2 hm v]; simp only [List.mem_append, not_or]; tauto
  rw [seen_missing]
  · rfl
  · rw [List.mem_append]
    exact fun h' => h'.elim (phase_params ph v (by simp [hv])) h

/-- An input of the equations of motion is listed by the phase exactly when it is not the friction coefficient. -/
theorem eom_covered_iff (ph : Phase) : ∀ v ∈ ph.eomIn, (v ∈ ph.params ↔ v ≠ "mission:takeoff:rolling_friction_coefficient") := by
  have h : ∀ ph ∈ [Phase.takeoff true true, .takeoff true false, .takeoff false true, .takeoff false false, .flight, .solvedGroundroll,
      .solved], ∀ v ∈ ph.eomIn, (v ∈ ph.params ↔ v ≠ "mission:takeoff:rolling_friction_coefficient") := by decide +kernel
  rcases ph with ⟨g, r⟩ | _ | _ | _
  · cases g <;> cases r <;> exact h _ (by simp)
  all_goals exact h _ (by simp)

/-- On the ground the takeoff uses the friction coefficient 0.02 whatever the user gives. -/
theorem friction_violated (i : Inputs) (o : Opts) (p : List (String × Src)) (hp : getParameters .gasp i (some o) = .ok p)
    (hm : o.method = none ∨ o.method = some "cruise" ∨ o.method = some "low_speed") (g r : Bool) (hg : (g || r) = true)
    (user : String → Option ℚ) (md : String → ℚ) :
    "mission:takeoff:rolling_friction_coefficient" ∈ (Phase.takeoff g r).eomIn ∧
    seen ((Phase.takeoff g r).params ++ names p) user (takeoffDefaults g r) md "mission:takeoff:rolling_friction_coefficient"
      = 2 / 100 := by
  have hl : ∀ b : Bool, "mission:takeoff:rolling_friction_coefficient" ∉ aero2dof ++ aeroClean ++ aeroLs ++
      (if b then bwbExtra else []) := by decide +kernel
  have h : "mission:takeoff:rolling_friction_coefficient" ∉ names p := by
    have hx := hl i.bwb
    simp only [List.mem_append, not_or] at hx
    rcases hm with hm | hm | hm
    · rw [(gasp_names i o p hp).1 (Or.inl hm)]; simp only [List.mem_append, not_or]; tauto
    · rw [(gasp_names i o p hp).1 (Or.inr hm)]; simp only [List.mem_append, not_or]; tauto
    · rw [(gasp_names i o p hp).2 hm]; simp only [List.mem_append, not_or]; tauto
  refine ⟨?_, ?_⟩
  · have h2 : ∀ g r : Bool, (g || r) = true → "mission:takeoff:rolling_friction_coefficient" ∈ (Phase.takeoff g r).eomIn := by
      decide +kernel
    exact h2 g r hg
  · rw [seen_missing]
    · simp [takeoffDefaults, hg]
    · rw [List.mem_append]
      exact fun h' => h'.elim (phase_params _ _ (by simp)) h

/-! Non-vacuity -/

/-- A transport with one tail of each kind and two engines. -/
def exIn : Inputs := ⟨fun _ => true, false, 1, 1, 1⟩

example : (∃ p, getParameters .gasp exIn (some ⟨none, []⟩) = .ok p) ∧ (∃ p, getParameters .gasp exIn (some ⟨some "low_speed", []⟩) = .ok p) ∧
    (∃ p, getParameters .flops exIn (some ⟨none, []⟩) = .ok p) ∧
    (∃ p, getParameters .flops exIn (some ⟨some "tabular", [("CD0_data", .text "a"), ("CDI_data", .text "b")]⟩) = .ok p) ∧
    (∃ p, getParameters .gasp exIn (some ⟨some "tabular_cruise", []⟩) = .ok p) := by
  refine ⟨⟨_, rfl⟩, ⟨_, rfl⟩, ⟨_, rfl⟩, ⟨_, rfl⟩, ⟨_, rfl⟩⟩

example : seen ["aircraft:wing:area"] (fun _ => some 1370) (fun _ => none) (fun _ => 0) "aircraft:wing:area" = 1370 := by decide +kernel

example : "aircraft:nacelle:fineness" ∈ groupIn .computed false false ⟨1, 1, 1, [2]⟩ ∧
    "aircraft:nacelle:fineness" ∉ groupIn .computed false false ⟨1, 1, 1, [0]⟩ := by decide +kernel

/-- The parts whose inputs the multiplexer has: the wing, and those of which there is at least one. -/
theorem muxIn_iff (n : Counts) (v : String) :
    v ∈ muxIn n ↔ ∃ part, v ∈ fiveOf part ∧ (part = "wing" ∨ (part = "horizontal_tail" ∧ 1 ≤ n.numH) ∨
      (part = "vertical_tail" ∧ 1 ≤ n.numV) ∨ (part = "fuselage" ∧ 1 ≤ n.numF) ∨ (part = "nacelle" ∧ 1 ≤ n.engines.sum)) := by
  have e : ∀ (z : ℤ) (p : String), v ∈ (if z > 0 then fiveOf p else []) ↔ v ∈ fiveOf p ∧ 1 ≤ z := by
    intro z p
    by_cases h : z > 0
    · rw [if_pos h]; exact ⟨fun x => ⟨x, h⟩, fun x => x.1⟩
    · rw [if_neg h]; exact ⟨fun x => (by simp at x), fun x => absurd (by omega) h⟩
  simp only [muxIn, List.mem_append, e]
  constructor
  · rintro ((((h | ⟨h, k⟩) | ⟨h, k⟩) | ⟨h, k⟩) | ⟨h, k⟩)
    · exact ⟨_, h, Or.inl rfl⟩
    · exact ⟨_, h, Or.inr (Or.inl ⟨rfl, k⟩)⟩
    · exact ⟨_, h, Or.inr (Or.inr (Or.inl ⟨rfl, k⟩))⟩
    · exact ⟨_, h, Or.inr (Or.inr (Or.inr (Or.inl ⟨rfl, k⟩)))⟩
    · exact ⟨_, h, Or.inr (Or.inr (Or.inr (Or.inr ⟨rfl, k⟩)))⟩
  · rintro ⟨p, h, rfl | ⟨rfl, k⟩ | ⟨rfl, k⟩ | ⟨rfl, k⟩ | ⟨rfl, k⟩⟩
    · exact Or.inl (Or.inl (Or.inl (Or.inl h)))
    · exact Or.inl (Or.inl (Or.inl (Or.inr ⟨h, k⟩)))
    · exact Or.inl (Or.inl (Or.inr ⟨h, k⟩))
    · exact Or.inl (Or.inr ⟨h, k⟩)
    · exact Or.inr ⟨h, k⟩

/-- The takeoff ODE sets defaults for two variables: the incidence on the ground roll only, the friction also while rotating. -/
theorem takeoffDefaults_iff (g r : Bool) (v : String) (q : ℚ) :
    takeoffDefaults g r v = some q ↔
      (v = "mission:takeoff:rolling_friction_coefficient" ∧ (g = true ∨ r = true) ∧ q = 1 / 50) ∨
        (v = "aircraft:wing:incidence" ∧ g = true ∧ q = 1) := by
  by_cases h1 : v = "mission:takeoff:rolling_friction_coefficient"
  · subst h1
    have e : (2 / 100 : ℚ) = 1 / 50 := by norm_num
    cases g <;> cases r <;> simp [takeoffDefaults, e, eq_comm]
  · by_cases h2 : v = "aircraft:wing:incidence"
    · subst h2
      cases g <;> simp [takeoffDefaults, eq_comm]
    · simp [takeoffDefaults, h1, h2]

end Verif.MissionParams
