import Verif.Model.CrewPayload
import Mathlib.Tactic.Linarith
import Mathlib.Tactic.SplitIfs
import Mathlib.Tactic.NormNum
import Mathlib.Algebra.Order.BigOperators.Group.List

/-! # C13, C14, C16, C33: crew and payload preprocessing -/

namespace Verif

/-! ## C13 -/

/-- Every count the user gave is non-negative. -/
def Pax.NonNeg (p : Pax) : Prop :=
  (∀ n, p.total = some n → 0 ≤ n) ∧ (∀ n, p.first = some n → 0 ≤ n) ∧
  (∀ n, p.business = some n → 0 ≤ n) ∧ (∀ n, p.econ = some n → 0 ≤ n)

/-- All four counts are present, non-negative, and the classes add up to the total. -/
def Pax.Consistent (p : Pax) : Prop :=
  ∃ f b e : ℤ, 0 ≤ f ∧ 0 ≤ b ∧ 0 ≤ e ∧ p = ⟨some (f + b + e), some f, some b, some e⟩

theorem Pax.fill_nonneg {p : Pax} (h : p.NonNeg) :
    ∃ t f b e : ℤ, 0 ≤ t ∧ 0 ≤ f ∧ 0 ≤ b ∧ 0 ≤ e ∧ p.fill .flops = ⟨some t, some f, some b, some e⟩ := by
  obtain ⟨t, f, b, e⟩ := p
  obtain ⟨h1, h2, h3, h4⟩ := h
  refine ⟨t.getD 0, f.getD 0, b.getD 0, e.getD 0, ?_, ?_, ?_, ?_, rfl⟩
  · cases t <;> simp_all
  · cases f <;> simp_all
  · cases b <;> simp_all
  · cases e <;> simp_all

theorem Pax.resolve_same {m : MassMethod} {p : Pax} (h : p.total.getD 0 = p.classSum m) : p.resolve m = p := by
  unfold Pax.resolve; simp only; rw [if_neg (not_not.2 h)]

theorem Pax.resolve_zero {m : MassMethod} {p : Pax} (h : p.total.getD 0 ≠ p.classSum m) (h0 : p.classSum m = 0) :
    p.resolve m = { p with econ := some (p.total.getD 0) } := by
  unfold Pax.resolve; simp only; rw [if_pos h, if_pos h0]

theorem Pax.resolve_sum {m : MassMethod} {p : Pax} (h : p.total.getD 0 ≠ p.classSum m) (h0 : p.classSum m ≠ 0) :
    p.resolve m = { p with total := some (p.classSum m) } := by
  unfold Pax.resolve; simp only; rw [if_pos h, if_neg h0]

theorem Pax.classSum_flops (t : Option ℤ) (f b e : ℤ) :
    Pax.classSum .flops ⟨t, some f, some b, some e⟩ = f + b + e := by simp [Pax.classSum]

theorem Pax.resolve_consistent {t f b e : ℤ} (ht : 0 ≤ t) (hf : 0 ≤ f) (hb : 0 ≤ b) (he : 0 ≤ e) :
    (Pax.resolve .flops ⟨some t, some f, some b, some e⟩).Consistent := by
  have hs := Pax.classSum_flops (some t) f b e
  by_cases h1 : t = f + b + e
  · rw [Pax.resolve_same (by rw [hs]; exact h1)]
    exact ⟨f, b, e, hf, hb, he, by rw [h1]⟩
  · by_cases h2 : f + b + e = 0
    · rw [Pax.resolve_zero (by rw [hs]; exact h1) (by rw [hs]; exact h2)]
      have : f = 0 ∧ b = 0 ∧ e = 0 := by omega
      obtain ⟨rfl, rfl, rfl⟩ := this
      exact ⟨0, 0, t, le_refl _, le_refl _, ht, by simp⟩
    · rw [Pax.resolve_sum (by rw [hs]; exact h1) (by rw [hs]; exact h2), hs]
      exact ⟨f, b, e, hf, hb, he, rfl⟩

theorem paxStep_consistent {o : CrewOpts} (hm : o.mission.NonNeg) (hd : o.design.NonNeg) :
    (paxStep .flops o).mission.Consistent ∧ (paxStep .flops o).design.Consistent := by
  obtain ⟨t, f, b, e, h1, h2, h3, h4, hM⟩ := Pax.fill_nonneg hm
  obtain ⟨t', f', b', e', h1', h2', h3', h4', hD⟩ := Pax.fill_nonneg hd
  have c1 := Pax.resolve_consistent h1 h2 h3 h4
  have c2 := Pax.resolve_consistent h1' h2' h3' h4'
  simp only [paxStep, hM, hD, Pax.copyFrom]
  constructor
  · cases o.mission.provided .flops <;> cases o.design.provided .flops <;> simpa
  · cases o.mission.provided .flops <;> cases o.design.provided .flops <;> simpa

theorem crewStep_pax {o o' : CrewOpts} (h : crewStep o = .ok o') :
    o'.mission = o.mission ∧ o'.design = o.design := by
  unfold crewStep at h
  simp only at h
  split at h
  · cases h; exact ⟨rfl, rfl⟩
  · split at h
    · split at h
      · split at h
        · cases h
        · cases h; exact ⟨rfl, rfl⟩
      · cases h; exact ⟨rfl, rfl⟩
    · cases h; exact ⟨rfl, rfl⟩

/-- **C13 (partial: non-negative counts).** For FLOPS, whatever subset of the passenger counts is given, the stored
totals are the sums of the stored classes, as flown and as designed. -/
theorem crewPayload_pax_consistent_partial (sizing : Bool) (o o' : CrewOpts)
    (hm : o.mission.NonNeg) (hd : o.design.NonNeg) (h : crewPayload (some .flops) sizing o = .ok o') :
    o'.mission.Consistent ∧ o'.design.Consistent := by
  obtain ⟨h1, h2⟩ := crewStep_pax h
  rw [h1, h2]
  exact paxStep_consistent hm hd

/-- What the preprocessor must do with one configuration's own information. -/
def Pax.Kept (given out : Pax) : Prop :=
  -- classes given and not all zero: they are kept, the total is their sum
  (given.first.getD 0 + given.business.getD 0 + given.econ.getD 0 ≠ 0 →
    out = ⟨some (given.first.getD 0 + given.business.getD 0 + given.econ.getD 0), some (given.first.getD 0),
      some (given.business.getD 0), some (given.econ.getD 0)⟩) ∧
  -- only a total given: it is kept and everybody flies economy
  (given.first = none → given.business = none → given.econ = none → ∀ t, given.total = some t →
    out = ⟨some t, some 0, some 0, some t⟩)

theorem Pax.resolve_fill_kept (p : Pax) : p.Kept ((p.fill .flops).resolve .flops) := by
  obtain ⟨t, f, b, e⟩ := p
  constructor
  · intro h
    simp only at h
    have hs := Pax.classSum_flops (some (t.getD 0)) (f.getD 0) (b.getD 0) (e.getD 0)
    simp only [Pax.fill]
    by_cases h1 : t.getD 0 = f.getD 0 + b.getD 0 + e.getD 0
    · rw [Pax.resolve_same (by rw [hs]; exact h1), h1]
    · rw [Pax.resolve_sum (by rw [hs]; exact h1) (by rw [hs]; exact h), hs]
  · intro hf hb he t' ht
    simp only at hf hb he ht
    subst hf hb he ht
    by_cases h : t' = 0
    · subst h; simp [Pax.fill, Pax.resolve, Pax.classSum]
    · simp [Pax.fill, Pax.resolve, Pax.classSum, h]

/-- **C13 (whose numbers win).** For FLOPS and any given counts: if both configurations carry information each
follows its own; if only one does, the other becomes equal to it; if none does, all counts are 0. Class counts beat
the total, a lone total becomes economy class. -/
theorem crewPayload_pax_source (sizing : Bool) (o o' : CrewOpts)
    (h : crewPayload (some .flops) sizing o = .ok o') :
    (o.mission ≠ ⟨none, none, none, none⟩ → o.mission.Kept o'.mission) ∧
    (o.design ≠ ⟨none, none, none, none⟩ → o.design.Kept o'.design) ∧
    (o.mission ≠ ⟨none, none, none, none⟩ → o.design = ⟨none, none, none, none⟩ → o'.design = o'.mission) ∧
    (o.design ≠ ⟨none, none, none, none⟩ → o.mission = ⟨none, none, none, none⟩ → o'.mission = o'.design) ∧
    (o.mission = ⟨none, none, none, none⟩ → o.design = ⟨none, none, none, none⟩ →
      o'.mission = ⟨some 0, some 0, some 0, some 0⟩ ∧ o'.design = ⟨some 0, some 0, some 0, some 0⟩) := by
  obtain ⟨h1, h2⟩ := crewStep_pax h
  rw [h1, h2]
  have hn : (Pax.mk none none none none).provided .flops = false := rfl
  have hpr : ∀ p : Pax, p ≠ ⟨none, none, none, none⟩ → p.provided .flops = true := by
    rintro ⟨a, b, c, d⟩ hne
    cases a <;> cases b <;> cases c <;> cases d <;> first
      | rfl
      | exact absurd rfl hne
  refine ⟨?_, ?_, ?_, ?_, ?_⟩
  · intro hp
    replace hp := hpr _ hp
    have : (paxStep .flops o).mission = (o.mission.fill .flops).resolve .flops := by simp [paxStep, hp]
    rw [this]; exact Pax.resolve_fill_kept _
  · intro hp
    replace hp := hpr _ hp
    have : (paxStep .flops o).design = (o.design.fill .flops).resolve .flops := by simp [paxStep, hp]
    rw [this]; exact Pax.resolve_fill_kept _
  · intro hp hd
    replace hp := hpr _ hp
    have hq : o.design.provided .flops = false := by rw [hd]; rfl
    simp [paxStep, hp, hq, Pax.copyFrom]
  · intro hp hd
    replace hp := hpr _ hp
    have hq : o.mission.provided .flops = false := by rw [hd]; rfl
    simp [paxStep, hp, hq, Pax.copyFrom]
  · intro hm hd
    simp [paxStep, hm, hd, hn, Pax.fill, Pax.resolve, Pax.classSum]

/-- **C13 (GASP).** Only the totals count: a given total is kept, a missing one is copied from the other
configuration, and the economy class is set to a non-zero total. -/
theorem crewPayload_pax_gasp (sizing : Bool) (o o' : CrewOpts) (h : crewPayload (some .gasp) sizing o = .ok o') :
    o'.mission.total = some ((o.mission.total <|> o.design.total).getD 0) ∧
    o'.design.total = some ((o.design.total <|> o.mission.total).getD 0) ∧
    (o'.design.total ≠ some 0 → o'.design.econ = o'.design.total) ∧
    (o'.mission.total ≠ some 0 → o'.mission.econ = o'.mission.total) := by
  have hp : o'.mission = (paxStep .gasp o).mission ∧ o'.design = (paxStep .gasp o).design := by
    unfold crewPayload cargoStep at h
    simp only at h
    split_ifs at h
    split at h
    · cases h
    · cases h; exact ⟨rfl, rfl⟩
  rw [hp.1, hp.2]
  have key : ∀ (p : Pax) (t : ℤ), p.total = some t → (p.resolve .gasp).total = some t ∧
      ((p.resolve .gasp).total ≠ some 0 → (p.resolve .gasp).econ = (p.resolve .gasp).total) := by
    intro p t ht
    simp only [Pax.resolve, Pax.classSum, ht, Option.getD_some]
    by_cases h0 : t = 0
    · simp [h0, ht]
    · simp [h0, ht]
  rcases hm : o.mission.total with _ | a <;> rcases hd : o.design.total with _ | b
  all_goals
    simp only [paxStep, Pax.provided, Pax.fill, Pax.copyFrom, hm, hd]
    simp only [Option.isSome, Bool.not_false, Bool.not_true, Bool.and_true, Bool.and_false, Bool.false_eq_true,
      if_false, if_true]
    refine ⟨?_, ?_, ?_, ?_⟩
    all_goals first
      | exact (key _ _ rfl).1
      | exact (key _ _ rfl).2

/-- **C13 violated for negative class counts.** First class 5, economy −5 and a total of 10 are accepted although
inconsistent, and the stored classes add up to 15, not to the stored total 10. -/
theorem crewPayload_negative_violated :
    ∃ o o', crewPayload (some .flops) true o = .ok o' ∧
      o'.mission = ⟨some 10, some 5, some 0, some 10⟩ := by
  refine ⟨⟨⟨some 10, some 5, none, some (-5)⟩, ⟨none, none, none, none⟩, none, none, none, none, none, none, none,
    none, none, none, none, none, none, none⟩, _, rfl, rfl⟩

/-! ## C14 -/

theorem crewStep_fields {o o' : CrewOpts} (h : crewStep o = .ok o') :
    o'.attendants = some (match o.attendants with
      | some a => if a < 0 then attendantsFor (o.design.total.getD 0) else a
      | none => attendantsFor (o.design.total.getD 0)) ∧
    o'.galley = some (match o.galley with
      | some g => if g < 0 then galleyFor (o.design.total.getD 0) else g
      | none => galleyFor (o.design.total.getD 0)) ∧
    o'.flightCrew = some (o.flightCrew.getD (flightCrewFor (o.design.total.getD 0))) ∧
    o'.massBag = some (o.massBag.getD (baggageFor o.range)) ∧
    (∀ a g, o'.attendants = some a → o'.galley = some g → ∀ c, o'.cabinCrew = some c → c = a + g) ∧
    (o'.cabinCrew.isSome = o.cabinCrew.isSome) ∧ o'.range = o.range ∧
    (o.tailMount.isSome = true → o'.tailMount = o.tailMount) := by
  unfold crewStep at h
  simp only at h
  have aux : ∀ (x : Option ℤ) (a g : ℤ), (∀ c, x.map (fun n => if a + g ≠ n then a + g else n) = some c → c = a + g) := by
    intro x a g c hc
    cases x with
    | none => cases hc
    | some n =>
      simp only [Option.map_some, Option.some.injEq] at hc
      split_ifs at hc <;> omega
  split at h
  · cases h
    refine ⟨rfl, rfl, rfl, rfl, ?_, by simp, rfl, by simp_all⟩
    intro a g ha hg; cases ha; cases hg; exact aux _ _ _
  all_goals
    split at h
    · split at h
      · split at h
        · cases h
        · cases h
          refine ⟨rfl, rfl, rfl, rfl, ?_, by simp, rfl, by simp_all⟩
          intro a g ha hg; cases ha; cases hg; exact aux _ _ _
      · cases h
        refine ⟨rfl, rfl, rfl, rfl, ?_, by simp, rfl, by simp_all⟩
        intro a g ha hg; cases ha; cases hg; exact aux _ _ _
    · cases h
      refine ⟨rfl, rfl, rfl, rfl, ?_, by simp, rfl, by simp_all⟩
      intro a g ha hg; cases ha; cases hg; exact aux _ _ _

theorem paxStep_frame (m : MassMethod) (o : CrewOpts) :
    (paxStep m o).attendants = o.attendants ∧ (paxStep m o).galley = o.galley ∧
    (paxStep m o).flightCrew = o.flightCrew ∧ (paxStep m o).massBag = o.massBag ∧
    (paxStep m o).cabinCrew = o.cabinCrew ∧ (paxStep m o).range = o.range ∧
    (paxStep m o).tailMount = o.tailMount := ⟨rfl, rfl, rfl, rfl, rfl, rfl, rfl⟩

/-- **C14.** For FLOPS, with `n` the stored number of design passengers: missing crew and baggage entries are filled
by the threshold rules, given ones (non-negative, for attendants and galley crew) are kept, and a given cabin crew
is made consistent with attendants + galley crew. -/
theorem crewPayload_crew (sizing : Bool) (o o' : CrewOpts) (n : ℤ)
    (h : crewPayload (some .flops) sizing o = .ok o') (hn : o'.design.total = some n) :
    (o.attendants = none → o'.attendants = some (if n ≤ 0 then 0 else if n ≤ 50 then 1 else n / 40 + 1)) ∧
    (∀ a, 0 ≤ a → o.attendants = some a → o'.attendants = some a) ∧
    (o.galley = none → o'.galley = some (if n ≤ 150 then 0 else n / 250 + 1)) ∧
    (∀ g, 0 ≤ g → o.galley = some g → o'.galley = some g) ∧
    (o.flightCrew = none → o'.flightCrew = some (if n ≤ 150 then 2 else 3)) ∧
    (∀ c, o.flightCrew = some c → o'.flightCrew = some c) ∧
    (o.massBag = none → o.range = none → o'.massBag = some 35) ∧
    (∀ r, o.massBag = none → o.range = some r →
      o'.massBag = some (if r ≤ 900 then 35 else if r ≤ 2900 then 40 else 44)) ∧
    (∀ b, o.massBag = some b → o'.massBag = some b) ∧
    (∀ c, o.cabinCrew = some c → ∃ a g, o'.attendants = some a ∧ o'.galley = some g ∧ o'.cabinCrew = some (a + g)) ∧
    (o.cabinCrew = none → o'.cabinCrew = none) := by
  obtain ⟨_, h2⟩ := crewStep_pax h
  obtain ⟨ha, hg, hf, hb, hc, hci, _, _⟩ := crewStep_fields h
  obtain ⟨f1, f2, f3, f4, f5, f6, _⟩ := paxStep_frame .flops o
  rw [h2] at hn
  rw [f1, hn] at ha
  rw [f2, hn] at hg
  rw [f3, hn] at hf
  rw [f4, f6] at hb
  rw [f5] at hci
  simp only [Option.getD_some] at ha hg hf
  refine ⟨?_, ?_, ?_, ?_, ?_, ?_, ?_, ?_, ?_, ?_, ?_⟩
  · intro e; rw [ha, e]; simp only [attendantsFor]; congr 1; split_ifs <;> omega
  · intro a h0 e; rw [ha, e]; simp only; rw [if_neg (by omega)]
  · intro e; rw [hg, e]; simp only [galleyFor]; congr 1; split_ifs <;> omega
  · intro a h0 e; rw [hg, e]; simp only; rw [if_neg (by omega)]
  · intro e; rw [hf, e]; simp only [flightCrewFor, Option.getD_none]; congr 1; split_ifs <;> omega
  · intro c e; rw [hf, e]; rfl
  · intro e e'; rw [hb, e, e']; rfl
  · intro r e e'; rw [hb, e, e']; rfl
  · intro b e; rw [hb, e]; rfl
  · intro c e
    rw [e] at hci
    obtain ⟨d, hd⟩ := Option.isSome_iff_exists.1 hci
    exact ⟨_, _, ha, hg, by rw [hd, hc _ _ ha hg d hd]⟩
  · intro e; rw [e] at hci; simpa using hci

/-- **C14 (negative entries, tail).** A negative number of attendants or galley crew counts as not given.  A given
tail mount location is kept; otherwise it is 1 exactly for a transport with at least two fuselage engines and 0
in all other cases (a missing aircraft type is an error when there are two or more fuselage engines). -/
theorem crewPayload_tail (sizing : Bool) (o : CrewOpts) :
    (∀ o', crewPayload (some .flops) sizing o = .ok o' → ∀ n, o'.design.total = some n →
      (∀ a, a < 0 → o.attendants = some a →
        o'.attendants = some (if n ≤ 0 then 0 else if n ≤ 50 then 1 else n / 40 + 1)) ∧
      (∀ g, g < 0 → o.galley = some g → o'.galley = some (if n ≤ 150 then 0 else n / 250 + 1)) ∧
      (∀ x, o.tailMount = some x → o'.tailMount = some x) ∧
      (o.tailMount = none → (o.fuseEngines = none ∨ ∃ k, o.fuseEngines = some k ∧ k < 2) →
        o'.tailMount = some 0) ∧
      (o.tailMount = none → ∀ k t, o.fuseEngines = some k → 2 ≤ k → o.transport = some t →
        o'.tailMount = some (if t then 1 else 0))) ∧
    (∀ k, o.tailMount = none → o.fuseEngines = some k → 2 ≤ k → o.transport = none →
      crewPayload (some .flops) sizing o = .error .keyError) := by
  refine ⟨?_, ?_⟩
  · intro o' h n hn
    have hd := (crewStep_pax h).2
    obtain ⟨ha, hg, -⟩ := crewStep_fields h
    rw [hd] at hn
    simp only [hn, Option.getD_some] at ha hg
    rw [show (paxStep .flops o).attendants = o.attendants from rfl] at ha
    rw [show (paxStep .flops o).galley = o.galley from rfl] at hg
    refine ⟨?_, ?_, ?_, ?_, ?_⟩
    · intro a h0 h1
      rw [ha, h1]
      simp only [h0, if_true, attendantsFor]
      split_ifs <;> first | rfl | omega
    · intro g h0 h1
      rw [hg, h1]
      simp only [h0, if_true, galleyFor]
      split_ifs <;> first | rfl | omega
    all_goals
      simp only [crewPayload, crewStep] at h
      rw [show (paxStep .flops o).tailMount = o.tailMount from rfl,
        show (paxStep .flops o).fuseEngines = o.fuseEngines from rfl,
        show (paxStep .flops o).transport = o.transport from rfl] at h
    · intro x hx
      simp only [hx, Except.ok.injEq] at h
      rw [← h]
    · rintro hx (hk | ⟨k, hk, h2⟩)
      · simp only [hx, hk, Except.ok.injEq] at h
        rw [← h]
      · have : ¬ k > 1 := by omega
        simp only [hx, hk, this, if_false, Except.ok.injEq] at h
        rw [← h]
    · intro hx k t hk h2 ht
      have : k > 1 := by omega
      simp only [hx, hk, this, if_true, ht, Except.ok.injEq] at h
      rw [← h]
  · intro k hx hk h2 ht
    have : k > 1 := by omega
    simp only [crewPayload, crewStep]
    rw [show (paxStep .flops o).tailMount = o.tailMount from rfl,
      show (paxStep .flops o).fuseEngines = o.fuseEngines from rfl,
      show (paxStep .flops o).transport = o.transport from rfl]
    simp [hx, hk, this, ht]

/-- **C14 (monotone, sufficient).** More design passengers never mean fewer default crew members, and there is
always an attendant per 50 passengers. -/
theorem crewDefaults_mono {n m : ℤ} (h : n ≤ m) :
    attendantsFor n ≤ attendantsFor m ∧ galleyFor n ≤ galleyFor m ∧ flightCrewFor n ≤ flightCrewFor m ∧
    n ≤ 50 * attendantsFor n := by
  unfold attendantsFor galleyFor flightCrewFor
  refine ⟨?_, ?_, ?_, ?_⟩ <;> split_ifs <;> omega

/-! ## C16 -/

/-- **C16 (filled values).** After a successful GASP run: a given maximum is kept, a missing one is the design
cargo, else the flown cargo, else 0; a given design cargo is kept, a missing one is the maximum if the flown
cargo was given and 0 otherwise; the flown cargo is 0 if missing, the design cargo in a sizing problem with all
three given, and as given otherwise.  The mass per passenger with bags is kept if given, else the sum of
passenger and baggage mass. -/
theorem cargoStep_values (sizing : Bool) (o o' : CrewOpts) (h : cargoStep sizing o = .ok o') :
    o'.maxCargo = some ((o.maxCargo.or (o.desCargo.or o.cargo)).getD 0) ∧
    o'.desCargo = (match o.desCargo, o.cargo with
      | some d, _ => some d
      | none, some _ => o'.maxCargo
      | none, none => some 0) ∧
    (o.cargo = none → o'.cargo = some 0) ∧
    (∀ c, o.cargo = some c → (sizing = false ∨ o.maxCargo = none ∨ o.desCargo = none) → o'.cargo = some c) ∧
    (∀ c m d, o.cargo = some c → o.maxCargo = some m → o.desCargo = some d → sizing = true →
      o'.cargo = some d) ∧
    (∀ w, o.massWithBags = some w → o'.massWithBags = some w) ∧
    (o.massWithBags = none → ∃ a b, o.massPax = some a ∧ o.massBag = some b ∧
      o'.massWithBags = some (a + b)) := by
  unfold cargoStep at h
  simp only at h
  split_ifs at h with h1 h2
  split at h
  · cases h
  rename_i w hw
  cases h
  simp only
  refine ⟨?_, ?_, ?_, ?_, ?_, ?_, ?_⟩
  · cases hc : o.cargo <;> cases hm : o.maxCargo <;> cases hd : o.desCargo <;>
      (try simp [cargoTree])
    split_ifs <;> rfl
  · cases hc : o.cargo <;> cases hm : o.maxCargo <;> cases hd : o.desCargo <;>
      (try simp [cargoTree])
    split_ifs <;> rfl
  · intro hc
    rw [hc]
    cases hm : o.maxCargo <;> cases hd : o.desCargo <;> simp [cargoTree]
  · intro c hc
    rw [hc]
    cases hm : o.maxCargo <;> cases hd : o.desCargo <;> simp [cargoTree]
    rintro rfl; rfl
  · intro c m d hc hm hd hs
    rw [hc, hm, hd, hs]
    by_cases hcd : c = d <;> simp [cargoTree, hcd]
  · intro x hx
    rw [hx] at hw
    simp only [Except.ok.injEq] at hw
    rw [hw]
  · intro hx
    rw [hx] at hw
    simp only at hw
    split at hw
    · rename_i a b ha hb
      simp only [Except.ok.injEq] at hw
      exact ⟨a, b, ha, hb, by rw [hw]⟩
    · cases hw

/-- **C16 (limits).** After a successful GASP run all three cargo masses are stored and neither flown nor design cargo
exceeds the maximum; the run fails with a warning-exception exactly when the resolved masses break the limits. -/
theorem cargoStep_limits (sizing : Bool) (o o' : CrewOpts) (h : cargoStep sizing o = .ok o') :
    ∃ c m d, o'.cargo = some c ∧ o'.maxCargo = some m ∧ o'.desCargo = some d ∧ c ≤ m ∧ d ≤ m ∧
      (∀ x, o.maxCargo = some x → m = x) ∧ (∀ x, o.desCargo = some x → d = x) ∧
      (∀ x, o.cargo = some x → c = x ∨ (sizing = true ∧ some c = o.desCargo)) := by
  unfold cargoStep at h
  rcases ht : cargoTree sizing o.cargo o.maxCargo o.desCargo with ⟨c, m, d⟩
  simp only [ht] at h
  split_ifs at h with h1 h2
  split at h
  · cases h
  · cases h
    refine ⟨c, m, d, rfl, rfl, rfl, not_lt.1 h1, not_lt.1 h2, ?_, ?_, ?_⟩
    all_goals
      intro x hx
      rcases hc : o.cargo with _ | a <;> rcases hm : o.maxCargo with _ | b <;> rcases hd : o.desCargo with _ | e <;>
        rw [hc, hm, hd] at ht <;> simp only [hc, hm, hd, Option.some.injEq, reduceCtorEq] at hx <;>
        simp only [cargoTree] at ht
      all_goals try split_ifs at ht with hs
      all_goals
        simp only [Prod.mk.injEq] at ht
        obtain ⟨e1, e2, e3⟩ := ht
        subst e1 e2 e3
        try subst hx
        first
          | rfl
          | exact Or.inl rfl
          | (simp only [Bool.and_eq_true] at hs; exact Or.inr ⟨hs.1, rfl⟩)

theorem cargoTree_full (sizing : Bool) (c m d : ℚ) (h : sizing = true → c = d) :
    cargoTree sizing (some c) (some m) (some d) = (c, m, d) := by
  unfold cargoTree
  cases sizing with
  | false => simp
  | true => simp [h rfl]

/-- **C16 (idempotence, exactly when).** Running GASP preprocessing on its own output always succeeds, and changes
nothing exactly when the problem is not a sizing problem or the stored flown cargo equals the design cargo. -/
theorem cargoStep_idem_iff (sizing : Bool) (o o' : CrewOpts) (h : cargoStep sizing o = .ok o') :
    (∃ o'', cargoStep sizing o' = .ok o'') ∧
    (cargoStep sizing o' = .ok o' ↔ (sizing = false ∨ o'.cargo = o'.desCargo)) := by
  obtain ⟨c, m, d, hc, hm, hd, h1, h2, _⟩ := cargoStep_limits sizing o o' h
  have hw : ∃ w, o'.massWithBags = some w := by
    unfold cargoStep at h
    simp only at h
    split_ifs at h
    split at h
    · cases h
    · cases h; exact ⟨_, rfl⟩
  obtain ⟨w, hw⟩ := hw
  have hrun : cargoStep sizing o' = .ok { o' with cargo := some (if sizing && c ≠ d then d else c) } := by
    unfold cargoStep
    rw [hc, hm, hd, hw]
    simp only [cargoTree]
    by_cases hs : (sizing && decide (c ≠ d)) = true
    · simp only [hs, if_true]
      rw [if_neg (not_lt.2 h2), if_neg (not_lt.2 h2)]
    · have hs' : (sizing && decide (c ≠ d)) = false := by simpa using hs
      simp only [hs', Bool.false_eq_true, if_false]
      rw [if_neg (not_lt.2 h1), if_neg (not_lt.2 h2)]
  refine ⟨⟨_, hrun⟩, ?_⟩
  rw [hrun, hc, hd]
  constructor
  · intro e
    have e' := congrArg (fun r => r.toOption.map CrewOpts.cargo) e
    simp only [Except.toOption, Option.map_some, hc, Option.some.injEq] at e'
    cases sizing with
    | false => left; rfl
    | true =>
      right
      by_cases hcd : c = d
      · rw [hcd]
      · simp [hcd] at e'; exact absurd e'.symm hcd
  · intro hor
    have : (if sizing && decide (c ≠ d) then d else c) = c := by
      rcases hor with hor | hor
      · simp [hor]
      · simp at hor; simp [hor]
    rw [this]
    obtain ⟨⟩ := o'; simp_all

/-- **C16 violated.** Sizing problem with maximum 100 and design 80: the first run stores a flown cargo of 0, the
second run 80. -/
theorem crewPayload_cargo_not_idempotent_violated :
    ∃ o o' o'', crewPayload (some .gasp) true o = .ok o' ∧ crewPayload (some .gasp) true o' = .ok o'' ∧
      o'.cargo = some 0 ∧ o''.cargo = some 80 := by
  refine ⟨⟨⟨some 10, none, none, none⟩, ⟨none, none, none, none⟩, none, none, none, none, none, some 100, some 80,
    none, none, some 200, none, none, none, none⟩, _, _, rfl, rfl, rfl, ?_⟩
  decide +kernel

theorem paxStep_idem_flops {o : CrewOpts} (hm : o.mission.NonNeg) (hd : o.design.NonNeg) :
    paxStep .flops (paxStep .flops o) = paxStep .flops o := by
  obtain ⟨⟨f, b, e, h1, h2, h3, hM⟩, ⟨f', b', e', h1', h2', h3', hD⟩⟩ := paxStep_consistent hm hd
  generalize paxStep .flops o = p at *
  obtain ⟨⟩ := p
  simp only at hM hD
  subst hM hD
  have r1 : Pax.resolve .flops ⟨some (f + b + e), some f, some b, some e⟩ = ⟨some (f + b + e), some f, some b, some e⟩ := by
    simp [Pax.resolve, Pax.classSum]
  have r2 : Pax.resolve .flops ⟨some (f' + b' + e'), some f', some b', some e'⟩
      = ⟨some (f' + b' + e'), some f', some b', some e'⟩ := by
    simp [Pax.resolve, Pax.classSum]
  simp [paxStep, Pax.provided, Pax.fill, r1, r2]

/-- **C16 (FLOPS idempotence).** For FLOPS with non-negative counts a second run changes nothing. -/
theorem crewPayload_idem_flops (s s' : Bool) (o o' : CrewOpts) (hm : o.mission.NonNeg) (hd : o.design.NonNeg)
    (h : crewPayload (some .flops) s o = .ok o') : crewPayload (some .flops) s' o' = .ok o' := by
  have hcrew : ∀ p : CrewOpts, crewStep p = .ok o' → paxStep .flops p = p → crewPayload (some .flops) s' o' = .ok o' := by
    intro p hp hpp
    have hpo : paxStep .flops o' = o' := by
      obtain ⟨e1, e2⟩ := crewStep_pax hp
      have a1 : (paxStep .flops p).mission = (paxStep .flops o').mission := by simp [paxStep, e1, e2]
      have a2 : (paxStep .flops p).design = (paxStep .flops o').design := by simp [paxStep, e1, e2]
      have : paxStep .flops o' = { o' with mission := (paxStep .flops o').mission, design := (paxStep .flops o').design } := rfl
      rw [this, ← a1, ← a2, hpp, ← e1, ← e2]
    simp only [crewPayload, hpo]
    have htail : ∃ x, o'.tailMount = some x := by
      unfold crewStep at hp
      simp only at hp
      split at hp
      · cases hp; exact ⟨_, ‹_›⟩
      · split at hp
        · split at hp
          · split at hp
            · cases hp
            · cases hp; exact ⟨_, rfl⟩
          · cases hp; exact ⟨_, rfl⟩
        · cases hp; exact ⟨_, rfl⟩
    obtain ⟨x, hx⟩ := htail
    obtain ⟨ha, hg, hf, hb, hc, _, hr, _⟩ := crewStep_fields hp
    obtain ⟨_, hdd⟩ := crewStep_pax hp
    have na : ∀ n : ℤ, 0 ≤ attendantsFor n := by intro n; unfold attendantsFor; split_ifs <;> omega
    have ng : ∀ n : ℤ, 0 ≤ galleyFor n := by intro n; unfold galleyFor; split_ifs <;> omega
    generalize hA : (match p.attendants with
      | some a => if a < 0 then attendantsFor (p.design.total.getD 0) else a
      | none => attendantsFor (p.design.total.getD 0)) = A at ha
    generalize hG : (match p.galley with
      | some g => if g < 0 then galleyFor (p.design.total.getD 0) else g
      | none => galleyFor (p.design.total.getD 0)) = G at hg
    have hA0 : 0 ≤ A := by
      rw [← hA]; split
      · split_ifs
        · exact na _
        · omega
      · exact na _
    have hG0 : 0 ≤ G := by
      rw [← hG]; split
      · split_ifs
        · exact ng _
        · omega
      · exact ng _
    have hcab : o'.cabinCrew.map (fun n => if A + G ≠ n then A + G else n) = o'.cabinCrew := by
      rcases hcc : o'.cabinCrew with _ | c
      · rfl
      · have := hc A G ha hg c hcc
        simp [this]
    unfold crewStep
    simp only [ha, hg, hf, hb, hx, Option.getD_some, if_neg (not_lt.2 hA0), if_neg (not_lt.2 hG0), hcab]
    congr 1
    obtain ⟨⟩ := o'
    simp_all
  exact hcrew _ h (paxStep_idem_flops hm hd)

example : ∃ o', crewPayload (some .flops) true ⟨⟨some 150, none, none, none⟩, ⟨none, some 12, none, some 148⟩, none,
    none, none, some 9, none, none, none, none, none, none, some 3500, some 2, some true, none⟩ = .ok o' ∧
    o'.design.total = some 160 ∧ o'.attendants = some 5 ∧ o'.galley = some 1 ∧ o'.cabinCrew = some 6 ∧
    o'.massBag = some 44 ∧ o'.tailMount = some 1 := by
  refine ⟨_, rfl, ?_⟩
  decide +kernel

/-! ## C33: fuel capacities -/

/-- **C33.** `preprocess_fuel_capacities` with FLOPS: accepted exactly when the given capacities are consistent with the
given total (equal to it when all three are given, not more than it otherwise); nothing the user gave is changed. -/
theorem fuelCaps_spec (o : FuelCaps) :
    ((∃ o', fuelCaps (some .flops) o = .ok o') ↔
      ∀ t, o.total = some t →
        (∀ w f a, o.wing = some w → o.fuselage = some f → o.aux = some a → w + f + a = t) ∧
        ((o.wing = none ∨ o.fuselage = none ∨ o.aux = none) →
          o.wing.getD 0 + o.fuselage.getD 0 + o.aux.getD 0 ≤ t)) ∧
    (∀ o', fuelCaps (some .flops) o = .ok o' →
      o'.total = o.total ∧ o'.wing = o.wing ∧ (∀ x, o.fuselage = some x → o'.fuselage = some x) ∧
      (∀ x, o.aux = some x → o'.aux = some x) ∧
      (o.total = none → o'.fuselage = some (o.fuselage.getD 0) ∧ o'.aux = some (o.aux.getD 0)) ∧
      (o.total ≠ none → o' = o)) := by
  obtain ⟨t, w, f, a⟩ := o
  constructor
  · cases t with
    | none => simp [fuelCaps]
    | some t =>
      rcases w with _ | w <;> rcases f with _ | f <;> rcases a with _ | a <;>
        simp [fuelCaps, List.filterMap, apply_ite]
      all_goals
        first
        | (constructor
           · rintro ⟨o', h⟩; split_ifs at h with h1 <;> linarith
           · intro h; rw [if_neg (by linarith)]; exact ⟨_, rfl⟩)
        | (constructor
           · rintro ⟨o', h⟩; split_ifs at h with h1 <;> linarith
           · intro h; rw [if_pos (by linarith)]; exact ⟨_, rfl⟩)
        | skip
  · intro o' h
    cases t with
    | none => simp only [fuelCaps, Except.ok.injEq] at h; subst h; simp +contextual
    | some t =>
      simp only [fuelCaps] at h
      split_ifs at h
      cases h
      simp +contextual

/-- **C33 (other methods).** GASP leaves all capacities alone; without a mass method the call is refused. -/
theorem fuelCaps_other (o : FuelCaps) :
    fuelCaps (some .gasp) o = .ok o ∧ fuelCaps none o = .error .userWarning := ⟨rfl, rfl⟩


example : fuelCaps (some .flops) ⟨some 100, some 60, none, some 41⟩ = .error .userWarning := by decide +kernel

end Verif
