import Verif.Model.DeckWiring
import Mathlib.Tactic.Tauto

/-!
# C117: the group that an engine deck builds for the mission is wired completely

The rules of OpenMDAO are stated here, independently of how the group is built: an explicit connection needs an existing,
unpromoted output and an existing, unpromoted input; a promoted name must exist; an input may have one source only; an
input is driven when it is promoted (then the outer group provides it) or is the target of a connection.
-/

namespace Verif.DeckWiring

open Verif

/-- There is a subsystem with this output, and it is not promoted. -/
def HasOut (g : Group) (p : Sub × Nm) : Prop := ∃ s ∈ g.systems, s.name = p.1 ∧ p.2 ∈ s.outs ∧ p.2 ∉ s.promOut

/-- There is a subsystem with this input, and it is not promoted. -/
def HasIn (g : Group) (p : Sub × Nm) : Prop := ∃ s ∈ g.systems, s.name = p.1 ∧ p.2 ∈ s.ins ∧ p.2 ∉ s.promIn

/-- OpenMDAO accepts the group: all connections and promotions refer to existing variables. -/
def Accepted (g : Group) : Prop :=
  (∀ c ∈ g.conns, HasOut g c.1 ∧ HasIn g c.2) ∧
  ∀ s ∈ g.systems, (∀ n ∈ s.promIn, n ∈ s.ins) ∧ (∀ n ∈ s.promOut, n ∈ s.outs)

/-- An input gets a value from outside or from a connection. -/
def Driven (g : Group) (s : Sys) (n : Nm) : Prop := n ∈ s.promIn ∨ ∃ c ∈ g.conns, c.2 = (s.name, n)

/-- An implicit connection: a promoted output and a promoted input of the same name. -/
def Implicit (g : Group) (s t : Sys) (n : Nm) : Prop := s ∈ g.systems ∧ t ∈ g.systems ∧ n ∈ s.promOut ∧ n ∈ t.promIn

/-! ## Membership -/

theorem mem_indep (b : Bool) (v : EVar) :
    v ∈ indep b ↔ v = .mach ∨ v = .altitude ∨ v = .throttle ∨ v = .hybridThrottle := by
  cases b <;> simp [indep] <;> tauto

theorem mem_systems (d : Deck) (ins : List EVar) (s : Sys) :
    s ∈ systems d ins ↔ s = interpSys d ins ∨ (d.uncorrectShp = true ∧ s = uncorrectSys .uncorrect) ∨
      (d.needsMax = true ∧ d.fixed = true ∧ s = fixedSys d) ∨ (d.needsMax = true ∧ d.fixed = false ∧ s = interpMaxSys d) ∨
      (d.needsMax = true ∧ s = maxSys d) ∨
      (d.needsMax = true ∧ d.uncorrectShp = true ∧ s = uncorrectSys .uncorrectMax) ∨ s = scalingSys d := by
  unfold systems
  cases d.uncorrectShp <;> cases d.needsMax <;> cases d.fixed <;> simp <;> tauto

theorem mem_conns (d : Deck) (c : (Sub × Nm) × (Sub × Nm)) :
    c ∈ conns d ↔
      (d.uncorrectShp = true ∧ c = ((.interpolation, .unscaled .shaftPowerCorrected), (.uncorrect, .correctedData))) ∨
      (d.needsMax = true ∧
        c = ((if d.fixed then Sub.fixedMax else .interpMax, Nm.max .throttle), (Sub.maxInterpolation, Nm.max .throttle))) ∨
      (d.needsMax = true ∧ d.uncorrectShp = true ∧
        c = ((.maxInterpolation, .maxUnscaled .shaftPowerCorrected), (.uncorrectMax, .correctedData))) ∨
      (∃ v ∈ d.vars, v ∉ skipped ∧ c = ((.interpolation, .unscaled v), (.scaling, .unscaled v))) ∨
      (∃ v ∈ d.vars, v ∈ maxVariables ∧ c = ((.maxInterpolation, .maxUnscaled v), (.scaling, .maxUnscaled v))) ∨
      (d.uncorrectShp = true ∧ c = ((.uncorrect, .uncorrectedData), (.scaling, .unscaled .shaftPower))) ∨
      (d.uncorrectShp = true ∧ c = ((.uncorrectMax, .uncorrectedData), (.scaling, .maxUnscaled .shaftPower))) := by
  have e : (d.useShaftPower && !d.vars.contains .shaftPower) = d.uncorrectShp := by
    unfold Deck.useShaftPower Deck.uncorrectShp
    cases d.vars.contains .shaftPower <;> cases d.vars.contains .shaftPowerCorrected <;> rfl
  have hv : c ∈ d.vars.flatMap varConns ↔
      (∃ v ∈ d.vars, v ∉ skipped ∧ c = ((.interpolation, .unscaled v), (.scaling, .unscaled v))) ∨
      (∃ v ∈ d.vars, v ∈ maxVariables ∧ c = ((.maxInterpolation, .maxUnscaled v), (.scaling, .maxUnscaled v))) := by
    rw [List.mem_flatMap]
    constructor
    · rintro ⟨v, hv, hc⟩
      unfold varConns at hc
      rw [List.mem_append] at hc
      rcases hc with hc | hc
      · by_cases h : v ∈ skipped
        · rw [if_pos h] at hc; cases hc
        · rw [if_neg h, List.mem_singleton] at hc; exact .inl ⟨v, hv, h, hc⟩
      · by_cases h : v ∈ maxVariables
        · rw [if_pos h, List.mem_singleton] at hc; exact .inr ⟨v, hv, h, hc⟩
        · rw [if_neg h] at hc; cases hc
    · rintro (⟨v, hv, h, hc⟩ | ⟨v, hv, h, hc⟩)
      · exact ⟨v, hv, by unfold varConns; rw [if_neg h]; simp [hc]⟩
      · exact ⟨v, hv, by unfold varConns; rw [if_pos h]; simp [hc]⟩
  unfold conns
  rw [e, List.mem_append, List.mem_append, hv, List.mem_append]
  cases d.uncorrectShp <;> cases d.needsMax <;> simp [or_assoc]

theorem uncorrect_iff (d : Deck) :
    d.uncorrectShp = true ↔ EVar.shaftPowerCorrected ∈ d.vars ∧ EVar.shaftPower ∉ d.vars := by
  unfold Deck.uncorrectShp; simp

theorem uncorrect_needsMax {d : Deck} (h : d.uncorrectShp = true) : d.needsMax = true := by
  have := List.contains_iff_mem.mpr ((uncorrect_iff d).mp h).1
  unfold Deck.needsMax Deck.useShaftPower
  rw [this]; simp

theorem mem_engineOutputs (d : Deck) (v : EVar) :
    v ∈ d.engineOutputs ↔ (v ∈ d.vars ∧ v ≠ .shaftPowerCorrected) ∨ (v = .shaftPower ∧ EVar.shaftPowerCorrected ∈ d.vars) := by
  unfold Deck.engineOutputs
  by_cases h : EVar.shaftPowerCorrected ∈ d.vars
  · rw [if_pos (List.contains_iff_mem.mpr h)]
    dsimp only
    by_cases h2 : EVar.shaftPower ∈ d.vars.filter (· ≠ .shaftPowerCorrected)
    · rw [if_pos (List.contains_iff_mem.mpr h2)]
      constructor
      · intro hv; have := List.mem_filter.mp hv; exact .inl ⟨this.1, by simpa using this.2⟩
      · rintro (⟨a, b⟩ | ⟨rfl, -⟩)
        · exact List.mem_filter.mpr ⟨a, by simpa using b⟩
        · exact h2
    · rw [if_neg (by rw [List.contains_iff_mem]; exact h2), List.mem_append]
      simp [h]
  · rw [if_neg (by rw [List.contains_iff_mem]; exact h)]
    constructor
    · intro hv; exact .inl ⟨hv, fun e => h (e ▸ hv)⟩
    · rintro (⟨a, -⟩ | ⟨-, a⟩)
      · exact a
      · exact absurd a h

theorem mem_interp_ins (d : Deck) (ins : List EVar) (n : Nm) :
    n ∈ (interpSys d ins).ins ↔ ∃ v, n = .val v ∧ v ∈ ins ∧ v ∈ d.vars := by
  unfold interpSys
  simp only [List.mem_map, List.mem_append, List.mem_filter, Bool.and_eq_true, List.contains_iff_mem, Bool.not_eq_true']
  constructor
  · rintro ⟨v, (⟨-, h1, h2⟩ | ⟨h1, h2, -⟩), rfl⟩
    · exact ⟨v, rfl, h1, h2⟩
    · exact ⟨v, rfl, h2, h1⟩
  · rintro ⟨v, rfl, h1, h2⟩
    refine ⟨v, ?_, rfl⟩
    by_cases h : v ∈ indep d.sortAlt
    · exact .inl ⟨h, h1, h2⟩
    · exact .inr ⟨h2, h1, by rw [← Bool.not_eq_true, List.contains_iff_mem]; exact h⟩

theorem mem_interp_outs (d : Deck) (ins : List EVar) (n : Nm) :
    n ∈ (interpSys d ins).outs ↔ ∃ v ∈ d.vars, v ∉ ins ∧ ((v ∈ noScale ∧ n = .val v) ∨ (v ∉ noScale ∧ n = .unscaled v)) := by
  unfold interpSys
  simp only [List.mem_map, List.mem_filter, Bool.not_eq_true']
  constructor
  · rintro ⟨v, ⟨h1, h2⟩, rfl⟩
    refine ⟨v, h1, (fun h => by rw [List.contains_iff_mem.mpr h] at h2; cases h2), ?_⟩
    by_cases h : v ∈ noScale
    · exact .inl ⟨h, by rw [if_pos h]⟩
    · exact .inr ⟨h, by rw [if_neg h]⟩
  · rintro ⟨v, h1, h2, h⟩
    refine ⟨v, ⟨h1, by rw [← Bool.not_eq_true, List.contains_iff_mem]; exact h2⟩, ?_⟩
    rcases h with ⟨h, rfl⟩ | ⟨h, rfl⟩
    · rw [if_pos h]
    · rw [if_neg h]

theorem mem_scaling_ins (d : Deck) (n : Nm) :
    n ∈ (scalingSys d).ins ↔ n = .scaleFactor ∨ n = .val .mach ∨ ∃ v ∈ d.engineOutputs, v ∉ scalingSkip ∧
      (n = .unscaled v ∨ (v ∈ maxVariables ∧ n = .maxUnscaled v)) := by
  unfold scalingSys
  simp only [List.mem_append, List.mem_cons, List.not_mem_nil, or_false, List.mem_flatMap, List.mem_filter,
    Bool.not_eq_true', or_assoc]
  refine or_congr Iff.rfl (or_congr Iff.rfl ⟨?_, ?_⟩)
  · rintro ⟨v, ⟨h1, h2⟩, h⟩
    refine ⟨v, h1, (fun h => by rw [List.contains_iff_mem.mpr h] at h2; cases h2), ?_⟩
    rcases h with h | h
    · exact .inl h
    · by_cases h3 : v ∈ maxVariables
      · rw [if_pos h3, List.mem_singleton] at h; exact .inr ⟨h3, h⟩
      · rw [if_neg h3] at h; cases h
  · rintro ⟨v, h1, h2, h⟩
    refine ⟨v, ⟨h1, by rw [← Bool.not_eq_true, List.contains_iff_mem]; exact h2⟩, ?_⟩
    rcases h with h | ⟨h3, h⟩
    · exact .inl h
    · exact .inr (by rw [if_pos h3, h]; exact List.mem_singleton.mpr rfl)

theorem mem_scaling_outs (d : Deck) (n : Nm) :
    n ∈ (scalingSys d).outs ↔ ∃ v ∈ d.engineOutputs, v ∉ scalingSkip ∧
      ((v = .fuelFlow ∧ n = .negFuelFlow) ∨ (v ≠ .fuelFlow ∧ n = .val v) ∨ (v ∈ maxVariables ∧ n = .max v)) := by
  unfold scalingSys
  simp only [List.mem_cons, List.mem_flatMap, List.mem_filter, Bool.not_eq_true']
  constructor
  · rintro ⟨v, ⟨h1, h2⟩, h⟩
    refine ⟨v, h1, (fun h => by rw [List.contains_iff_mem.mpr h] at h2; cases h2), ?_⟩
    rcases h with h | h
    · by_cases h3 : v = .fuelFlow
      · rw [if_pos h3] at h; exact .inl ⟨h3, h⟩
      · rw [if_neg h3] at h; exact .inr (.inl ⟨h3, h⟩)
    · by_cases h3 : v ∈ maxVariables
      · rw [if_pos h3, List.mem_singleton] at h; exact .inr (.inr ⟨h3, h⟩)
      · rw [if_neg h3] at h; cases h
  · rintro ⟨v, h1, h2, h⟩
    refine ⟨v, ⟨h1, by rw [← Bool.not_eq_true, List.contains_iff_mem]; exact h2⟩, ?_⟩
    rcases h with ⟨h3, h⟩ | ⟨h3, h⟩ | ⟨h3, h⟩
    · rw [if_pos h3]; exact .inl h
    · rw [if_neg h3]; exact .inl h
    · exact .inr (by rw [if_pos h3, h]; exact List.mem_singleton.mpr rfl)

theorem mem_max_ins (d : Deck) (n : Nm) :
    n ∈ (maxSys d).ins ↔ n = .val .mach ∨ n = .val .altitude ∨ n = .max .throttle ∨
      (EVar.hybridThrottle ∈ d.vars ∧ n = .max .hybridThrottle) := by
  have e : d.useHybrid = true ↔ EVar.hybridThrottle ∈ d.vars := List.contains_iff_mem
  unfold maxSys
  rw [← e]
  cases d.sortAlt <;> cases d.useHybrid <;> simp <;> tauto

theorem mem_max_outs (d : Deck) (n : Nm) :
    n ∈ (maxSys d).outs ↔ n = .maxUnscaled .thrust ∨ (EVar.shaftPower ∈ d.vars ∧ n = .maxUnscaled .shaftPower) ∨
      (d.uncorrectShp = true ∧ n = .maxUnscaled .shaftPowerCorrected) := by
  have e : d.vars.contains .shaftPower = true ↔ EVar.shaftPower ∈ d.vars := List.contains_iff_mem
  unfold maxSys Deck.useShaftPower Deck.uncorrectShp
  rw [← e]
  cases d.vars.contains .shaftPower <;> cases d.vars.contains .shaftPowerCorrected <;> simp

/-! ## Which decks give an accepted group -/

/-- The variables of the deck which may be inputs. -/
def InputOk (d : Deck) (v : EVar) : Prop :=
  v = .mach ∨ v = .altitude ∨ v = .throttle ∨ v = .hybridThrottle ∨ v = .rpm ∨
    (v = .shaftPowerCorrected ∧ EVar.shaftPower ∈ d.vars)

theorem interp_promIn (d : Deck) (ins : List EVar) : (interpSys d ins).promIn = (interpSys d ins).ins := rfl
theorem interpMax_promIn (d : Deck) : (interpMaxSys d).promIn = (interpMaxSys d).ins := rfl
theorem scaling_promOut (d : Deck) : (scalingSys d).promOut = (scalingSys d).outs := rfl

theorem name_interp {d : Deck} {ins : List EVar} {s : Sys} (h : s ∈ systems d ins) (hn : s.name = .interpolation) :
    s = interpSys d ins := by
  rcases (mem_systems d ins s).mp h with h | ⟨-, h⟩ | ⟨-, -, h⟩ | ⟨-, -, h⟩ | ⟨-, h⟩ | ⟨-, -, h⟩ | h
  · exact h
  all_goals (rw [h] at hn; cases hn)

theorem name_fixed {d : Deck} {ins : List EVar} {s : Sys} (h : s ∈ systems d ins) (hn : s.name = .fixedMax) :
    s = fixedSys d := by
  rcases (mem_systems d ins s).mp h with h | ⟨-, h⟩ | ⟨-, -, h⟩ | ⟨-, -, h⟩ | ⟨-, h⟩ | ⟨-, -, h⟩ | h
  all_goals first | exact h | (rw [h] at hn; cases hn)

/-- The group of a deck is accepted exactly if (a) a deck with a global hybrid throttle also has a global throttle, and
(b) only Mach number, altitude, the throttles and the speed of rotation are inputs (corrected shaft power too if the deck
also gives shaft power). -/
theorem accepted_iff (d : Deck) (ins : List EVar) :
    Accepted ⟨systems d ins, conns d⟩ ↔
      (d.needsMax = true → d.globalHybrid = true → EVar.hybridThrottle ∈ d.vars → d.globalThrottle = true) ∧
      ∀ v ∈ d.vars, v ∈ ins → InputOk d v := by
  have eh : d.useHybrid = true ↔ EVar.hybridThrottle ∈ d.vars := List.contains_iff_mem
  have et : d.useT4 = true ↔ EVar.t4 ∈ d.vars := List.contains_iff_mem
  have mi : interpSys d ins ∈ systems d ins := (mem_systems _ _ _).mpr (.inl rfl)
  have ms : scalingSys d ∈ systems d ins := (mem_systems _ _ _).mpr (.inr (.inr (.inr (.inr (.inr (.inr rfl))))))
  have mm : d.needsMax = true → maxSys d ∈ systems d ins := fun h => (mem_systems _ _ _).mpr (.inr (.inr (.inr (.inr (.inl ⟨h, rfl⟩)))))
  constructor
  · rintro ⟨hc, hp⟩
    constructor
    · intro hm hg hh
      by_contra hgt
      have hf : d.fixed = true := by unfold Deck.fixed; rw [hg, eh.mpr hh]; simp
      obtain ⟨s, hs, hn, ho, -⟩ := (hc _ ((mem_conns d _).mpr (.inr (.inl ⟨hm, rfl⟩)))).1
      simp only [hf, if_true] at hn ho
      have := name_fixed hs hn
      rw [this] at ho
      unfold fixedSys at ho
      cases hgt2 : d.globalThrottle
      · rw [hgt2] at ho; simp at ho
      · exact hgt hgt2
    · intro v hv hi
      by_cases hsk : v ∈ skipped
      · unfold skipped at hsk
        simp only [List.mem_cons, List.not_mem_nil, or_false] at hsk
        rcases hsk with rfl | rfl | rfl | rfl | rfl | rfl | rfl
        · exact .inl rfl
        · exact .inr (.inl rfl)
        · exact .inr (.inr (.inl rfl))
        · exact .inr (.inr (.inr (.inl rfl)))
        · exfalso
          have : Nm.val .t4 ∈ (interpSys d ins).outs := (hp _ mi).2 _ (by
            show Nm.val .t4 ∈ (if d.useT4 then [Nm.val .t4] else [])
            rw [if_pos (et.mpr hv)]; exact List.mem_singleton.mpr rfl)
          obtain ⟨w, -, hw, h⟩ := (mem_interp_outs d ins _).mp this
          rcases h with ⟨-, h⟩ | ⟨-, h⟩
          · cases h; exact hw hi
          · cases h
        · by_cases hsp : EVar.shaftPower ∈ d.vars
          · exact .inr (.inr (.inr (.inr (.inr ⟨rfl, hsp⟩))))
          · exfalso
            obtain ⟨s, hs, hn, ho, -⟩ := (hc _ ((mem_conns d _).mpr (.inl ⟨(uncorrect_iff d).mpr ⟨hv, hsp⟩, rfl⟩))).1
            rw [name_interp hs hn] at ho
            obtain ⟨w, -, hw, h⟩ := (mem_interp_outs d ins _).mp ho
            rcases h with ⟨-, h⟩ | ⟨-, h⟩
            · cases h
            · cases h; exact hw hi
        · exact .inr (.inr (.inr (.inr (.inl rfl))))
      · exfalso
        obtain ⟨s, hs, hn, ho, -⟩ := (hc _ ((mem_conns d _).mpr (.inr (.inr (.inr (.inl ⟨v, hv, hsk, rfl⟩)))))).1
        rw [name_interp hs hn] at ho
        obtain ⟨w, -, hw, h⟩ := (mem_interp_outs d ins _).mp ho
        rcases h with ⟨-, h⟩ | ⟨-, h⟩
        · cases h
        · cases h; exact hw hi
  · rintro ⟨h1, h2⟩
    have outI : ∀ v ∈ d.vars, v ∉ ins → v ∉ noScale → HasOut ⟨systems d ins, conns d⟩ (.interpolation, .unscaled v) := by
      intro v hv hi hn
      refine ⟨_, mi, rfl, (mem_interp_outs _ _ _).mpr ⟨v, hv, hi, .inr ⟨hn, rfl⟩⟩, ?_⟩
      show Nm.unscaled v ∉ (if d.useT4 then [Nm.val .t4] else [])
      cases d.useT4 <;> simp
    have inS : ∀ v ∈ d.engineOutputs, v ∉ scalingSkip → HasIn ⟨systems d ins, conns d⟩ (.scaling, .unscaled v) := by
      intro v hv hk
      refine ⟨_, ms, rfl, (mem_scaling_ins _ _).mpr (.inr (.inr ⟨v, hv, hk, .inl rfl⟩)), ?_⟩
      show Nm.unscaled v ∉ [Nm.scaleFactor, .val .mach]
      simp
    have inM : ∀ v ∈ d.engineOutputs, v ∉ scalingSkip → v ∈ maxVariables →
        HasIn ⟨systems d ins, conns d⟩ (.scaling, .maxUnscaled v) := by
      intro v hv hk hm
      refine ⟨_, ms, rfl, (mem_scaling_ins _ _).mpr (.inr (.inr ⟨v, hv, hk, .inr ⟨hm, rfl⟩⟩)), ?_⟩
      show Nm.maxUnscaled v ∉ [Nm.scaleFactor, .val .mach]
      simp
    have outM : d.needsMax = true → ∀ n ∈ (maxSys d).outs, HasOut ⟨systems d ins, conns d⟩ (.maxInterpolation, n) :=
      fun hm n hn => ⟨_, mm hm, rfl, hn, by show n ∉ []; exact List.not_mem_nil⟩
    constructor
    · intro c hc
      rcases (mem_conns d c).mp hc with ⟨hu, rfl⟩ | ⟨hm, rfl⟩ | ⟨hm, hu, rfl⟩ | ⟨v, hv, hs, rfl⟩ | ⟨v, hv, hx, rfl⟩ |
        ⟨hu, rfl⟩ | ⟨hu, rfl⟩
      · obtain ⟨hv, hsp⟩ := (uncorrect_iff d).mp hu
        refine ⟨outI _ hv (fun hi => ?_) (by decide), _, (mem_systems _ _ _).mpr (.inr (.inl ⟨hu, rfl⟩)), rfl, by
          show Nm.correctedData ∈ [Nm.temperature, .staticPressure, .val .mach, .correctedData]; simp, by
          show Nm.correctedData ∉ [Nm.temperature, .staticPressure, .val .mach]; simp⟩
        rcases h2 _ hv hi with h | h | h | h | h | h
        all_goals first | exact hsp h.2 | cases h
      · refine ⟨?_, _, mm hm, rfl, (mem_max_ins _ _).mpr (.inr (.inr (.inl rfl))), by
          show Nm.max .throttle ∉ [Nm.val .mach, .val .altitude]; simp⟩
        cases hf : d.fixed
        · have hgt : d.globalThrottle = false := by
            unfold Deck.fixed at hf; cases h : d.globalThrottle
            · rfl
            · rw [h] at hf; cases hf
          exact ⟨_, (mem_systems _ _ _).mpr (.inr (.inr (.inr (.inl ⟨hm, hf, rfl⟩)))), rfl, by
            show Nm.max .throttle ∈ (if !d.globalThrottle then [Nm.max .throttle] else []) ++
              (if !d.globalHybrid && d.useHybrid then [Nm.max .hybridThrottle] else [])
            rw [hgt]; simp, by show _ ∉ []; exact List.not_mem_nil⟩
        · have hgt : d.globalThrottle = true := by
            unfold Deck.fixed at hf
            cases h : d.globalThrottle
            · rw [h] at hf
              simp only [Bool.false_or, Bool.and_eq_true] at hf
              rw [← h]; exact h1 hm hf.1 (eh.mp hf.2)
            · rfl
          exact ⟨_, (mem_systems _ _ _).mpr (.inr (.inr (.inl ⟨hm, hf, rfl⟩))), rfl, by
            show Nm.max .throttle ∈ (if d.globalThrottle then [Nm.max .throttle] else []) ++
              (if d.globalHybrid && d.useHybrid then [Nm.max .hybridThrottle] else [])
            rw [hgt]; simp, by show _ ∉ []; exact List.not_mem_nil⟩
      · exact ⟨outM hm _ ((mem_max_outs _ _).mpr (.inr (.inr ⟨hu, rfl⟩))), _,
          (mem_systems _ _ _).mpr (.inr (.inr (.inr (.inr (.inr (.inl ⟨hm, hu, rfl⟩)))))), rfl, by
          show Nm.correctedData ∈ [Nm.temperature, .staticPressure, .val .mach, .correctedData]; simp, by
          show Nm.correctedData ∉ [Nm.temperature, .staticPressure, .val .mach]; simp⟩
      · have hne : v ≠ .shaftPowerCorrected := fun e => hs (by rw [e]; decide)
        refine ⟨outI v hv (fun hi => ?_) (fun hn => hs ?_), inS v ((mem_engineOutputs _ _).mpr (.inl ⟨hv, hne⟩))
          (fun hk => hs ?_)⟩
        · rcases h2 v hv hi with h | h | h | h | h | h
          all_goals first | exact hne h.1 | exact hs (by rw [h]; decide)
        · unfold noScale at hn; simp only [List.mem_cons, List.not_mem_nil, or_false] at hn
          rcases hn with rfl | rfl <;> decide
        · unfold scalingSkip at hk; simp only [List.mem_cons, List.not_mem_nil, or_false] at hk
          rcases hk with rfl | rfl | rfl | rfl | rfl <;> decide
      · have hx' := hx
        unfold maxVariables at hx; simp only [List.mem_cons, List.not_mem_nil, or_false] at hx
        rcases hx with rfl | rfl
        · have hm : d.needsMax = true := by
            unfold Deck.needsMax Deck.useThrust; rw [List.contains_iff_mem.mpr hv]; simp
          exact ⟨outM hm _ ((mem_max_outs _ _).mpr (.inl rfl)),
            inM _ ((mem_engineOutputs _ _).mpr (.inl ⟨hv, by decide⟩)) (by decide) hx'⟩
        · have hm : d.needsMax = true := by
            unfold Deck.needsMax Deck.useShaftPower; rw [List.contains_iff_mem.mpr hv]; simp
          exact ⟨outM hm _ ((mem_max_outs _ _).mpr (.inr (.inl ⟨hv, rfl⟩))),
            inM _ ((mem_engineOutputs _ _).mpr (.inl ⟨hv, by decide⟩)) (by decide) hx'⟩
      · exact ⟨⟨_, (mem_systems _ _ _).mpr (.inr (.inl ⟨hu, rfl⟩)), rfl, List.mem_singleton.mpr rfl, by
          show _ ∉ []; exact List.not_mem_nil⟩,
          inS _ ((mem_engineOutputs _ _).mpr (.inr ⟨rfl, ((uncorrect_iff d).mp hu).1⟩)) (by decide)⟩
      · exact ⟨⟨_, (mem_systems _ _ _).mpr (.inr (.inr (.inr (.inr (.inr (.inl ⟨uncorrect_needsMax hu, hu, rfl⟩)))))), rfl,
          List.mem_singleton.mpr rfl, by show _ ∉ []; exact List.not_mem_nil⟩,
          inM _ ((mem_engineOutputs _ _).mpr (.inr ⟨rfl, ((uncorrect_iff d).mp hu).1⟩)) (by decide) (by decide)⟩
    · intro s hs
      have unc : ∀ k, (∀ n ∈ (uncorrectSys k).promIn, n ∈ (uncorrectSys k).ins) ∧
          (∀ n ∈ (uncorrectSys k).promOut, n ∈ (uncorrectSys k).outs) := fun k =>
        ⟨fun n hn => by
          change n ∈ [Nm.temperature, .staticPressure, .val .mach] at hn
          exact List.mem_append_left [Nm.correctedData] hn, fun n hn => absurd hn List.not_mem_nil⟩
      rcases (mem_systems d ins s).mp hs with h | ⟨-, h⟩ | ⟨-, -, h⟩ | ⟨-, -, h⟩ | ⟨-, h⟩ | ⟨-, -, h⟩ | h
      · rw [h]
        refine ⟨fun n hn => (interp_promIn d ins) ▸ hn, fun n hn => ?_⟩
        change n ∈ (if d.useT4 then [Nm.val .t4] else []) at hn
        by_cases ht : d.useT4 = true
        · rw [if_pos ht, List.mem_singleton] at hn
          rw [hn]
          refine (mem_interp_outs _ _ _).mpr ⟨.t4, et.mp ht, fun hi => ?_, .inl ⟨by decide, rfl⟩⟩
          rcases h2 _ (et.mp ht) hi with h | h | h | h | h | ⟨h, -⟩ <;> cases h
        · rw [if_neg ht] at hn; cases hn
      · rw [h]; exact unc _
      · rw [h]; exact ⟨fun n hn => absurd hn List.not_mem_nil, fun n hn => absurd hn List.not_mem_nil⟩
      · rw [h]; exact ⟨fun n hn => (interpMax_promIn d) ▸ hn, fun n hn => absurd hn List.not_mem_nil⟩
      · rw [h]
        refine ⟨fun n hn => (mem_max_ins _ _).mpr ?_, fun n hn => absurd hn List.not_mem_nil⟩
        change n ∈ [Nm.val .mach, .val .altitude] at hn
        simp only [List.mem_cons, List.not_mem_nil, or_false] at hn
        rcases hn with h | h
        · exact .inl h
        · exact .inr (.inl h)
      · rw [h]; exact unc _
      · rw [h]
        refine ⟨fun n hn => (mem_scaling_ins _ _).mpr ?_, fun n hn => (scaling_promOut d) ▸ hn⟩
        change n ∈ [Nm.scaleFactor, .val .mach] at hn
        simp only [List.mem_cons, List.not_mem_nil, or_false] at hn
        rcases hn with h | h
        · exact .inl h
        · exact .inr (.inl h)

/-- In an accepted group the only inputs without a value are the maximum hybrid throttle of the maximum interpolation and the
unscaled speed of rotation of the scaling. -/
theorem undriven_iff (d : Deck) (ins : List EVar) (s : Sys) (hs : s ∈ systems d ins)
    (n : Nm) (hn : n ∈ s.ins) :
    ¬ Driven ⟨systems d ins, conns d⟩ s n ↔
      (s.name = .maxInterpolation ∧ n = .max .hybridThrottle) ∨ (s.name = .scaling ∧ n = .unscaled .rpm) := by
  have hc : ∀ c, c ∈ conns d → c.2 = (s.name, n) → Driven ⟨systems d ins, conns d⟩ s n := fun c h e => .inr ⟨c, h, e⟩
  rcases (mem_systems d ins s).mp hs with rfl | ⟨hu, rfl⟩ | ⟨hm, hf, rfl⟩ | ⟨hm, hf, rfl⟩ | ⟨hm, rfl⟩ | ⟨hm, hu, rfl⟩ | rfl
  · refine ⟨fun h => absurd (.inl hn) h, ?_⟩
    rintro (⟨h, -⟩ | ⟨h, -⟩) <;> cases h
  · change n ∈ [Nm.temperature, .staticPressure, .val .mach, .correctedData] at hn
    refine ⟨fun h => ?_, ?_⟩
    · simp only [List.mem_cons, List.not_mem_nil, or_false] at hn
      rcases hn with rfl | rfl | rfl | rfl
      · exact absurd (.inl (by show _ ∈ [Nm.temperature, .staticPressure, .val .mach]; simp)) h
      · exact absurd (.inl (by show _ ∈ [Nm.temperature, .staticPressure, .val .mach]; simp)) h
      · exact absurd (.inl (by show _ ∈ [Nm.temperature, .staticPressure, .val .mach]; simp)) h
      · exact absurd (hc _ ((mem_conns d _).mpr (.inl ⟨hu, rfl⟩)) rfl) h
    · rintro (⟨h, -⟩ | ⟨h, -⟩) <;> cases h
  · cases hn
  · refine ⟨fun h => absurd (.inl hn) h, ?_⟩
    rintro (⟨h, -⟩ | ⟨h, -⟩) <;> cases h
  · rcases (mem_max_ins d n).mp hn with rfl | rfl | rfl | ⟨hh, rfl⟩
    · refine ⟨fun h => absurd (.inl (by show _ ∈ [Nm.val .mach, .val .altitude]; simp)) h, ?_⟩
      rintro (⟨-, h⟩ | ⟨-, h⟩) <;> cases h
    · refine ⟨fun h => absurd (.inl (by show _ ∈ [Nm.val .mach, .val .altitude]; simp)) h, ?_⟩
      rintro (⟨-, h⟩ | ⟨-, h⟩) <;> cases h
    · refine ⟨fun h => absurd (hc _ ((mem_conns d _).mpr (.inr (.inl ⟨hm, rfl⟩))) rfl) h, ?_⟩
      rintro (⟨-, h⟩ | ⟨-, h⟩) <;> cases h
    · refine ⟨fun _ => .inl ⟨rfl, rfl⟩, fun _ => ?_⟩
      rintro (h | ⟨c, h, e⟩)
      · change _ ∈ [Nm.val .mach, .val .altitude] at h; simp at h
      · rcases (mem_conns d c).mp h with ⟨-, rfl⟩ | ⟨-, rfl⟩ | ⟨-, -, rfl⟩ | ⟨v, -, -, rfl⟩ | ⟨v, -, -, rfl⟩ | ⟨-, rfl⟩ |
          ⟨-, rfl⟩ <;> cases e
  · change n ∈ [Nm.temperature, .staticPressure, .val .mach, .correctedData] at hn
    refine ⟨fun h => ?_, ?_⟩
    · simp only [List.mem_cons, List.not_mem_nil, or_false] at hn
      rcases hn with rfl | rfl | rfl | rfl
      · exact absurd (.inl (by show _ ∈ [Nm.temperature, .staticPressure, .val .mach]; simp)) h
      · exact absurd (.inl (by show _ ∈ [Nm.temperature, .staticPressure, .val .mach]; simp)) h
      · exact absurd (.inl (by show _ ∈ [Nm.temperature, .staticPressure, .val .mach]; simp)) h
      · exact absurd (hc _ ((mem_conns d _).mpr (.inr (.inr (.inl ⟨hm, hu, rfl⟩)))) rfl) h
    · rintro (⟨h, -⟩ | ⟨h, -⟩) <;> cases h
  · have prom : ∀ m, m ∈ [Nm.scaleFactor, .val .mach] → m ≠ .unscaled .rpm → (¬ Driven ⟨systems d ins, conns d⟩ (scalingSys d) m ↔
        ((scalingSys d).name = .maxInterpolation ∧ m = .max .hybridThrottle) ∨
          ((scalingSys d).name = .scaling ∧ m = .unscaled .rpm)) := by
      intro m hm hne
      refine ⟨fun h => absurd (.inl hm) h, ?_⟩
      rintro (⟨h, -⟩ | ⟨-, h⟩)
      · cases h
      · exact absurd h hne
    rcases (mem_scaling_ins d n).mp hn with rfl | rfl | ⟨v, hv, hk, h⟩
    · exact prom _ (by simp) (by simp)
    · exact prom _ (by simp) (by simp)
    · rcases h with rfl | ⟨hx, rfl⟩
      · constructor
        · intro h
          right
          refine ⟨rfl, ?_⟩
          by_contra hne
          apply h
          rcases (mem_engineOutputs d v).mp hv with ⟨h1, h2⟩ | ⟨h1, h2⟩
          · refine hc _ ((mem_conns d _).mpr (.inr (.inr (.inr (.inl ⟨v, h1, fun hsk => ?_, rfl⟩))))) rfl
            unfold skipped at hsk; simp only [List.mem_cons, List.not_mem_nil, or_false] at hsk
            rcases hsk with rfl | rfl | rfl | rfl | rfl | rfl | rfl
            · exact hk (by decide)
            · exact hk (by decide)
            · exact hk (by decide)
            · exact hk (by decide)
            · exact hk (by decide)
            · exact h2 rfl
            · exact hne rfl
          · subst h1
            by_cases hsp : EVar.shaftPower ∈ d.vars
            · exact hc _ ((mem_conns d _).mpr (.inr (.inr (.inr (.inl ⟨.shaftPower, hsp, by decide, rfl⟩))))) rfl
            · exact hc _ ((mem_conns d _).mpr (.inr (.inr (.inr (.inr (.inr (.inl
                ⟨(uncorrect_iff d).mpr ⟨h2, hsp⟩, rfl⟩))))))) rfl
        · rintro (⟨h, -⟩ | ⟨-, h⟩)
          · cases h
          · cases h
            rintro (h | ⟨c, h, e⟩)
            · change _ ∈ [Nm.scaleFactor, .val .mach] at h; simp at h
            · rcases (mem_conns d c).mp h with ⟨-, rfl⟩ | ⟨-, rfl⟩ | ⟨-, -, rfl⟩ | ⟨w, -, hw, rfl⟩ | ⟨w, -, -, rfl⟩ | ⟨-, rfl⟩ |
                ⟨-, rfl⟩
              · cases e
              · cases e
              · cases e
              · cases e; exact hw (by decide)
              all_goals cases e
      · refine ⟨fun h => absurd ?_ h, ?_⟩
        · rcases (mem_engineOutputs d v).mp hv with ⟨h1, h2⟩ | ⟨h1, h2⟩
          · exact hc _ ((mem_conns d _).mpr (.inr (.inr (.inr (.inr (.inl ⟨v, h1, hx, rfl⟩)))))) rfl
          · subst h1
            by_cases hsp : EVar.shaftPower ∈ d.vars
            · exact hc _ ((mem_conns d _).mpr (.inr (.inr (.inr (.inr (.inl ⟨.shaftPower, hsp, by decide, rfl⟩)))))) rfl
            · exact hc _ ((mem_conns d _).mpr (.inr (.inr (.inr (.inr (.inr (.inr
                ⟨(uncorrect_iff d).mpr ⟨h2, hsp⟩, rfl⟩))))))) rfl
        · rintro (⟨h, -⟩ | ⟨-, h⟩) <;> cases h

/-- An input of the group never has two explicit sources. -/
theorem one_source (d : Deck) (a b : (Sub × Nm) × (Sub × Nm)) (ha : a ∈ conns d) (hb : b ∈ conns d) (h : a.2 = b.2) :
    a = b := by
  rcases (mem_conns d a).mp ha with ⟨ua, rfl⟩ | ⟨-, rfl⟩ | ⟨-, -, rfl⟩ | ⟨v, hv, -, rfl⟩ | ⟨v, hv, -, rfl⟩ | ⟨ua, rfl⟩ | ⟨ua, rfl⟩ <;>
  rcases (mem_conns d b).mp hb with ⟨ub, rfl⟩ | ⟨-, rfl⟩ | ⟨-, -, rfl⟩ | ⟨w, hw, -, rfl⟩ | ⟨w, hw, -, rfl⟩ | ⟨ub, rfl⟩ | ⟨ub, rfl⟩
  all_goals first
    | rfl
    | (cases h; rfl)
    | cases h
  all_goals first
    | exact absurd hv ((uncorrect_iff d).mp ub).2
    | exact absurd hw ((uncorrect_iff d).mp ua).2

/-- In an accepted group the only implicit connection is from the speed of rotation of the scaling to that of the
interpolation, when the speed of rotation is an input of the deck. -/
theorem implicit_iff (d : Deck) (ins : List EVar) (hacc : Accepted ⟨systems d ins, conns d⟩) (s t : Sys) (n : Nm) :
    Implicit ⟨systems d ins, conns d⟩ s t n ↔
      s = scalingSys d ∧ t = interpSys d ins ∧ n = .val .rpm ∧ EVar.rpm ∈ d.vars ∧ EVar.rpm ∈ ins := by
  obtain ⟨-, h2⟩ := (accepted_iff d ins).mp hacc
  have et : d.useT4 = true ↔ EVar.t4 ∈ d.vars := List.contains_iff_mem
  constructor
  · rintro ⟨hs, ht, ho, hi⟩
    -- promoted inputs
    have key : (∃ v, n = .val v ∧ t = interpSys d ins ∧ v ∈ ins ∧ v ∈ d.vars) ∨ n = .val .mach ∨ n = .val .altitude ∨
        n = .temperature ∨ n = .staticPressure ∨ n = .scaleFactor := by
      rcases (mem_systems d ins t).mp ht with rfl | ⟨-, rfl⟩ | ⟨-, -, rfl⟩ | ⟨-, -, rfl⟩ | ⟨-, rfl⟩ | ⟨-, -, rfl⟩ | rfl
      · obtain ⟨v, h, h3, h4⟩ := (mem_interp_ins d ins n).mp hi
        exact .inl ⟨v, h, rfl, h3, h4⟩
      · change n ∈ [Nm.temperature, .staticPressure, .val .mach] at hi
        simp only [List.mem_cons, List.not_mem_nil, or_false] at hi; tauto
      · cases hi
      · unfold interpMaxSys at hi
        cases hb : d.sortAlt <;> rw [hb] at hi <;> simp at hi <;> tauto
      · change n ∈ [Nm.val .mach, .val .altitude] at hi
        simp only [List.mem_cons, List.not_mem_nil, or_false] at hi; tauto
      · change n ∈ [Nm.temperature, .staticPressure, .val .mach] at hi
        simp only [List.mem_cons, List.not_mem_nil, or_false] at hi; tauto
      · change n ∈ [Nm.scaleFactor, .val .mach] at hi
        simp only [List.mem_cons, List.not_mem_nil, or_false] at hi; tauto
    rcases (mem_systems d ins s).mp hs with rfl | ⟨-, rfl⟩ | ⟨-, -, rfl⟩ | ⟨-, -, rfl⟩ | ⟨-, rfl⟩ | ⟨-, -, rfl⟩ | rfl
    · exfalso
      change n ∈ (if d.useT4 then [Nm.val .t4] else []) at ho
      by_cases h : d.useT4 = true
      · rw [if_pos h, List.mem_singleton] at ho
        subst ho
        rcases key with ⟨v, h3, -, h4, h5⟩ | h | h | h | h | h
        · cases h3
          rcases h2 _ h5 h4 with h | h | h | h | h | ⟨h, -⟩ <;> cases h
        all_goals cases h
      · rw [if_neg h] at ho; cases ho
    · cases ho
    · cases ho
    · cases ho
    · cases ho
    · cases ho
    · obtain ⟨w, hw, hk, h⟩ := (mem_scaling_outs d n).mp ho
      rcases h with ⟨-, rfl⟩ | ⟨hf, rfl⟩ | ⟨-, rfl⟩
      · exfalso
        rcases key with ⟨v, h3, -⟩ | h | h | h | h | h
        · cases h3
        all_goals cases h
      · rcases key with ⟨v, h3, h4, h5, h6⟩ | h | h | h | h | h
        · cases h3
          rcases h2 _ h6 h5 with rfl | rfl | rfl | rfl | rfl | ⟨rfl, -⟩
          · exact absurd (by decide) hk
          · exact absurd (by decide) hk
          · exact absurd (by decide) hk
          · exact absurd (by decide) hk
          · exact ⟨rfl, h4, rfl, h6, h5⟩
          · rcases (mem_engineOutputs d _).mp hw with ⟨-, h⟩ | ⟨h, -⟩
            · exact absurd rfl h
            · cases h
        · cases h; exact absurd (by decide) hk
        · cases h; exact absurd (by decide) hk
        all_goals cases h
      · exfalso
        rcases key with ⟨v, h3, -⟩ | h | h | h | h | h
        · cases h3
        all_goals cases h
  · rintro ⟨rfl, rfl, rfl, h3, h4⟩
    exact ⟨(mem_systems _ _ _).mpr (by tauto), (mem_systems _ _ _).mpr (by tauto),
      (mem_scaling_outs _ _).mpr ⟨.rpm, (mem_engineOutputs _ _).mpr (.inl ⟨h3, by decide⟩), by decide, .inr (.inl ⟨by decide, rfl⟩)⟩,
      (mem_interp_ins _ _ _).mpr ⟨.rpm, rfl, h4, h3⟩⟩

/-! ## Positive results for the whole builder -/

/-- A usual deck: read from a file which names its inputs or not, only the four independent variables are inputs. -/
theorem build_accepted (d : Deck) (ins outs : List EVar) (hio : d.io = some (ins, outs))
    (hout : ∀ v ∈ indep d.sortAlt, v ∉ outs)
    (hin : ∀ v ∈ d.vars, v ∈ ins → v ∈ indep d.sortAlt)
    (hg : d.globalHybrid = true → d.globalThrottle = true) :
    ∃ g, build d = .ok g ∧ Accepted g := by
  have ok : ∀ v, v ∈ indep d.sortAlt → InputOk d v := by
    intro v hv
    rcases (mem_indep _ _).mp hv with h | h | h | h <;> unfold InputOk <;> tauto
  by_cases h : ins = []
  · refine ⟨⟨systems d (indep d.sortAlt), conns d⟩, by unfold build Deck.inputs; rw [hio]; simp [h], ?_⟩
    exact (accepted_iff _ _).mpr ⟨fun _ h _ => hg h, fun v _ hv => ok v hv⟩
  · refine ⟨⟨systems d ins, conns d⟩, ?_, ?_⟩
    · unfold build Deck.inputs
      rw [hio]
      dsimp only
      rw [if_neg h, if_neg]
      rw [List.any_eq_true]
      rintro ⟨v, hv, hc⟩
      exact hout v hv (List.contains_iff_mem.mp hc)
    · exact (accepted_iff _ _).mpr ⟨fun _ h _ => hg h, fun v hv hi => ok v (hin v hv hi)⟩

/-- A turbofan deck with fuel flow and T4. -/
def deckEx : Deck :=
  { vars := [.mach, .altitude, .throttle, .thrust, .fuelFlow, .t4], io := some ([], []), globalThrottle := true,
    globalHybrid := false, sortAlt := false }

example : ∃ g, build deckEx = .ok g ∧ Accepted g :=
  build_accepted deckEx [] [] rfl (by simp) (by simp) (by simp [deckEx])

/-! ## What fails -/

/-- A deck whose data are given in memory has no lists of inputs and outputs, so the mission group cannot be built. -/
theorem memory_deck_violated (d : Deck) (h : d.io = none) : build d = .error .attributeError := by
  unfold build Deck.inputs; rw [h]

/-- A deck with a global hybrid throttle and throttles per flight condition connects an output that does not exist. -/
theorem hybrid_global_violated (d : Deck) (g : Group) (hb : build d = .ok g) (hm : d.needsMax = true)
    (hh : EVar.hybridThrottle ∈ d.vars) (hg : d.globalHybrid = true) (hgt : d.globalThrottle = false) : ¬ Accepted g := by
  unfold build at hb
  split at hb
  · cases hb
  · cases hb
    intro h
    have := ((accepted_iff _ _).mp h).1 hm hg hh
    rw [hgt] at this; cases this

/-- A hybrid deck with a global hybrid throttle only. -/
def deckHy : Deck :=
  { vars := [.mach, .altitude, .throttle, .hybridThrottle, .thrust], io := some ([], []), globalThrottle := false,
    globalHybrid := true, sortAlt := false }

example : ∃ g, build deckHy = .ok g ∧ ¬ Accepted g :=
  ⟨_, rfl, hybrid_global_violated deckHy _ rfl rfl (by decide) rfl rfl⟩

/-- A deck with a hybrid throttle never gives its maximum to the interpolation of the maximum thrust. -/
theorem hybrid_max_violated (d : Deck) (g : Group) (hb : build d = .ok g) (hm : d.needsMax = true)
    (hh : EVar.hybridThrottle ∈ d.vars) :
    ∃ s ∈ g.systems, s.name = .maxInterpolation ∧ Nm.max .hybridThrottle ∈ s.ins ∧ ¬ Driven g s (.max .hybridThrottle) := by
  unfold build at hb
  split at hb
  · cases hb
  · rename_i ins _
    cases hb
    have hs : maxSys d ∈ systems d ins := (mem_systems _ _ _).mpr (by tauto)
    have hn : Nm.max .hybridThrottle ∈ (maxSys d).ins := (mem_max_ins _ _).mpr (by tauto)
    exact ⟨_, hs, rfl, hn, (undriven_iff d ins _ hs _ hn).mpr (.inl ⟨rfl, rfl⟩)⟩

/-- A deck with the speed of rotation promotes an output for it whose unscaled input has no source, while the interpolated
value is neither promoted nor connected. -/
theorem rpm_violated (d : Deck) (g : Group) (hb : build d = .ok g) (hr : EVar.rpm ∈ d.vars) :
    (∃ s ∈ g.systems, Nm.val .rpm ∈ s.promOut ∧ Nm.unscaled .rpm ∈ s.ins ∧ ¬ Driven g s (.unscaled .rpm)) ∧
    (∀ s ∈ g.systems, s.name = .interpolation → Nm.val .rpm ∉ s.promOut) ∧
    ∀ c ∈ g.conns, c.1 ≠ (.interpolation, .val .rpm) := by
  unfold build at hb
  split at hb
  · cases hb
  · rename_i ins _
    cases hb
    have hs : scalingSys d ∈ systems d ins := (mem_systems _ _ _).mpr (by tauto)
    have ho : EVar.rpm ∈ d.engineOutputs := (mem_engineOutputs _ _).mpr (.inl ⟨hr, by decide⟩)
    have hn : Nm.unscaled .rpm ∈ (scalingSys d).ins := (mem_scaling_ins _ _).mpr (.inr (.inr ⟨_, ho, by decide, .inl rfl⟩))
    refine ⟨⟨_, hs, (mem_scaling_outs _ _).mpr ⟨_, ho, by decide, .inr (.inl ⟨by decide, rfl⟩)⟩, hn,
      (undriven_iff d ins _ hs _ hn).mpr (.inr ⟨rfl, rfl⟩)⟩, fun s hs hn => ?_, fun c hc e => ?_⟩
    · rw [name_interp hs hn]
      show Nm.val .rpm ∉ (if d.useT4 then [Nm.val .t4] else [])
      cases d.useT4 <;> simp
    · rcases (mem_conns d c).mp hc with ⟨-, rfl⟩ | ⟨-, rfl⟩ | ⟨-, -, rfl⟩ | ⟨v, -, -, rfl⟩ | ⟨v, -, -, rfl⟩ | ⟨-, rfl⟩ |
        ⟨-, rfl⟩ <;> (have e2 := congrArg Prod.snd e; cases e2)

/-- A deck that declares the fuel flow (or any variable other than the independent ones and the speed of rotation) as an
input is not accepted. -/
theorem other_input_violated (d : Deck) (ins : List EVar) (v : EVar) (hv : v ∈ d.vars) (hi : v ∈ ins) (ho : ¬ InputOk d v) :
    ¬ Accepted ⟨systems d ins, conns d⟩ := fun h => ho (((accepted_iff _ _).mp h).2 v hv hi)

example : ¬ InputOk deckEx .fuelFlow := by unfold InputOk; simp

/-- With the speed of rotation as an input of the deck, the interpolation is fed by the undriven output of the scaling. -/
theorem rpm_input_violated (d : Deck) (ins : List EVar) (hr : EVar.rpm ∈ d.vars) (hi : EVar.rpm ∈ ins)
    (hacc : Accepted ⟨systems d ins, conns d⟩) :
    Implicit ⟨systems d ins, conns d⟩ (scalingSys d) (interpSys d ins) (.val .rpm) :=
  (implicit_iff d ins hacc _ _ _).mpr ⟨rfl, rfl, rfl, hr, hi⟩

example : Implicit ⟨systems { deckEx with vars := [.mach, .altitude, .throttle, .rpm, .shaftPower] }
      [.mach, .altitude, .throttle, .rpm], conns { deckEx with vars := [.mach, .altitude, .throttle, .rpm, .shaftPower] }⟩
    (scalingSys { deckEx with vars := [.mach, .altitude, .throttle, .rpm, .shaftPower] })
    (interpSys { deckEx with vars := [.mach, .altitude, .throttle, .rpm, .shaftPower] } [.mach, .altitude, .throttle, .rpm])
    (.val .rpm) := by
  refine rpm_input_violated _ _ (by decide) (by decide) ((accepted_iff _ _).mpr ⟨by simp [deckEx], ?_⟩)
  intro v _ hi
  unfold InputOk
  simp only [List.mem_cons, List.not_mem_nil, or_false] at hi
  tauto

/-- The deck has a thrust when its file gives the net thrust, the thrust of the tailpipe, or both the gross thrust and the
ram drag; the largest thrust (or power) is interpolated for those decks and for the ones with a shaft power. -/
theorem thrust_iff (d : Deck) : d.useThrust = true ↔
    EVar.thrust ∈ d.vars ∨ EVar.tailpipeThrust ∈ d.vars ∨ (EVar.grossThrust ∈ d.vars ∧ EVar.ramDrag ∈ d.vars) := by
  simp [Deck.useThrust, or_assoc]

example : Deck.useThrust { deckEx with vars := [.mach, .altitude, .throttle, .grossThrust] } = false := by decide

end Verif.DeckWiring
