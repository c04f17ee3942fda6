import Verif.Model.Guesses
import Mathlib.Tactic.Linarith
import Mathlib.Tactic.Positivity
import Mathlib.Tactic.NormNum
import Mathlib.Tactic.FieldSimp

/-! # C30: initial guesses -/

namespace Verif
open Real

/-- Physically sensible inputs. -/
structure GuessIn.Sane (i : GuessIn) : Prop where
  pax : 0 ≤ i.pax
  add : 0 ≤ i.reserveAdd
  frac : 0 ≤ i.reserveFrac
  range : 0 ≤ i.range
  paxMass : 0 ≤ i.paxMass
  gross : 0 < i.designGross
  mach : 0 < guessMach i
  alt : 0 < i.cruiseAlt
  thrust : 0 < totalThrust i

/-- **C30 (rejection).** A negative reserves guess, and only that, is rejected. -/
theorem initGuess_error_iff (i : GuessIn) (g : Guess) :
    (∃ e, initGuess i g = .error e) ↔ g.reserves < 0 := by
  unfold initGuess guessReserves
  by_cases h : g.reserves < 0
  · simp [h]
  · by_cases h2 : g.reserves = 0
    · simp [h2]
    · by_cases h3 : g.reserves < 10 <;> simp [h, h2, h3]

theorem guessBurn_pos (g : Guess) : 0 < guessBurn g := by
  unfold guessBurn; split
  · norm_num
  · linarith

/-- **C30 (reserves).** The resulting reserves are non-negative. -/
theorem initGuess_reserves_nonneg (i : GuessIn) (hi : i.Sane) (g g' : Guess) (h : initGuess i g = .ok g') :
    0 ≤ g'.reserves := by
  have hb := guessBurn_pos g
  have hp : 0 ≤ i.pax * guessBurn g * i.range := by
    have := hi.pax; have := hi.range; positivity
  unfold initGuess at h
  cases hr : guessReserves i g with
  | error e => simp [hr] at h
  | ok r =>
    simp only [hr, Except.ok.injEq] at h
    subst h
    simp only
    unfold guessReserves at hr
    split at hr
    · cases hr
    · rename_i h0
      split at hr
      · rename_i h1
        cases hr
        have := hi.add; have := hi.frac
        rw [h1]; positivity
      · split at hr
        · cases hr
          exact mul_nonneg (by linarith) hp
        · cases hr; linarith

/-- **C30 (fractions of the take-off mass).** With a positive gross mass given, that mass is used; guesses in
`(0, 1]` are fractions of it, larger ones are masses; the missing rotation mass is 99 % of it and, for sizing, the
missing final cruise mass 80 % of it. -/
theorem initGuess_fractions (i : GuessIn) (g g' : Guess) (m : ℝ) (hm : i.missionGross = some m) (hpos : 0 < m)
    (h : initGuess i g = .ok g') :
    g'.takeoffMass = m ∧
    (g.rotationMass ≤ 0 → g'.rotationMass = 0.99 * m) ∧
    (0 < g.rotationMass → g.rotationMass ≤ 1 → g'.rotationMass = g.rotationMass * m) ∧
    (1 < g.rotationMass → g'.rotationMass = g.rotationMass) ∧
    (g.cruiseMassFinal = 0 → i.prob = .sizing → g'.cruiseMassFinal = 0.8 * m) ∧
    (0 < g.cruiseMassFinal → g.cruiseMassFinal ≤ 1 → g'.cruiseMassFinal = g.cruiseMassFinal * m) ∧
    (1 < g.cruiseMassFinal → g'.cruiseMassFinal = g.cruiseMassFinal) ∧
    (g.cruiseMassFinal < 0 → g'.cruiseMassFinal = g'.oem + i.pax * i.paxMass + g'.reserves) := by
  unfold initGuess at h
  cases hr : guessReserves i g with
  | error e => simp [hr] at h
  | ok r =>
    simp only [hr, Except.ok.injEq] at h
    subst h
    have hmass : guessMass i g r = m := by
      unfold guessMass; rw [hm]; simp [not_le.2 hpos]
    simp only [hmass]
    refine ⟨trivial, ?_, ?_, ?_, ?_, ?_, ?_, ?_⟩
    · intro h1; unfold guessRotation; rw [if_pos h1, if_pos (by norm_num)]; ring
    · intro h1 h2; unfold guessRotation; simp only [if_neg (not_le.2 h1)]; rw [if_pos h2]; ring
    · intro h1; unfold guessRotation
      simp only [if_neg (show ¬ g.rotationMass ≤ 0 by linarith)]; rw [if_neg (by linarith)]
    · intro h1 h2; unfold guessCruiseMass; simp only [h1, h2, if_true]
      rw [if_neg (by norm_num), if_pos (by norm_num)]; ring
    · intro h1 h2; unfold guessCruiseMass; simp only [if_neg h1.ne']
      rw [if_neg (by linarith), if_pos h2]; ring
    · intro h1; unfold guessCruiseMass; simp only [if_neg (show g.cruiseMassFinal ≠ 0 by linarith)]
      rw [if_neg (by linarith), if_neg (by linarith)]
    · intro h1; unfold guessCruiseMass; simp only [if_neg h1.ne]
      rw [if_pos h1.le]

/-- **C30 (durations).** Flight durations up to 15 are hours, climb times up to 2 are hours, up to 200 average
climb rates in ft/s, larger values seconds. -/
theorem initGuess_durations (i : GuessIn) (g g' : Guess) (h : initGuess i g = .ok g') :
    (0 < g.duration → g.duration ≤ 15 → g'.duration = 3600 * g.duration) ∧
    (15 < g.duration → g'.duration = g.duration) ∧
    (0 < g.timeToClimb → g.timeToClimb ≤ 2 → g'.timeToClimb = 3600 * g.timeToClimb) ∧
    (2 < g.timeToClimb → g.timeToClimb ≤ 200 → g'.timeToClimb * g.timeToClimb = i.cruiseAlt) ∧
    (200 < g.timeToClimb → g'.timeToClimb = g.timeToClimb) := by
  unfold initGuess at h
  cases hr : guessReserves i g with
  | error e => simp [hr] at h
  | ok r =>
    simp only [hr, Except.ok.injEq] at h
    subst h
    refine ⟨?_, ?_, ?_, ?_, ?_⟩
    · intro h1 h2; simp only [guessDuration]; rw [if_neg (by linarith), if_pos h2]; ring
    · intro h1; simp only [guessDuration]; rw [if_neg (by linarith), if_neg (by linarith)]
    · intro h1 h2; simp only [guessClimbTime]; rw [if_neg (by linarith), if_pos h2]; ring
    · intro h1 h2; simp only [guessClimbTime]
      rw [if_neg (by linarith), if_neg (by linarith), if_pos h2]
      field_simp
    · intro h1; simp only [guessClimbTime]
      rw [if_neg (by linarith), if_neg (by linarith), if_neg (by linarith)]

/-- The clipped angle is a proper climb angle, whatever the thrust. -/
theorem guessGamma_range (i : GuessIn) (mass : ℝ) (hm : 0 < mass) (ht : 0 < totalThrust i) :
    0 < sin (guessGamma i mass) ∧ sin (guessGamma i mass) = min (0.5 * totalThrust i / mass) 1 ∧
    0 ≤ cos (guessGamma i mass) := by
  have hx : 0 < 0.5 * totalThrust i / mass := by positivity
  have hmax : max (0.5 * totalThrust i / mass) (-1) = 0.5 * totalThrust i / mass := max_eq_left (by linarith)
  unfold guessGamma
  rw [hmax, sin_arcsin (by rw [le_min_iff]; constructor <;> linarith) (min_le_right _ _)]
  refine ⟨lt_min hx one_pos, rfl, cos_arcsin_nonneg _⟩

/-- **C30 (reserves, values).** The default burn is 0.1; no reserves guess gives the additional reserves plus the margin on the trip fuel; guesses
below 10 are fractions of the trip fuel, others masses. -/
theorem initGuess_reserves_values (i : GuessIn) (g g' : Guess) (h : initGuess i g = .ok g') :
    (g.burn ≤ 0 → g'.burn = 1 / 10) ∧ (0 < g.burn → g'.burn = g.burn) ∧
    (g.reserves = 0 → g'.reserves = i.reserveAdd + i.reserveFrac * (i.pax * g'.burn * i.range)) ∧
    (0 < g.reserves → g.reserves < 10 → g'.reserves = g.reserves * (i.pax * g'.burn * i.range)) ∧
    (10 ≤ g.reserves → g'.reserves = g.reserves) := by
  unfold initGuess at h
  cases hr : guessReserves i g with
  | error e => simp [hr] at h
  | ok r =>
    simp only [hr, Except.ok.injEq] at h
    subst h
    simp only
    unfold guessReserves at hr
    refine ⟨?_, ?_, ?_, ?_, ?_⟩
    · intro hb; rw [guessBurn, if_pos hb]; norm_num
    · intro hb; rw [guessBurn, if_neg (by linarith)]
    · intro h0; rw [if_neg (by linarith), if_pos h0, h0, Except.ok.injEq] at hr; linarith
    · intro h0 h1; rw [if_neg (by linarith), if_neg h0.ne', if_pos h1, Except.ok.injEq] at hr; exact hr.symm
    · intro h0
      rw [if_neg (by linarith), if_neg (by intro hz; rw [hz] at h0; norm_num at h0), if_neg (by linarith),
        Except.ok.injEq] at hr
      exact hr.symm

/-- **C30 (take-off and cruise mass, values).** The mission gross mass, or the design gross mass if there is none, is used if positive.
Otherwise an off-design mission of given range gets empty mass, payload, trip fuel and reserves; sizing and maximal range get the design gross
mass. Without a cruise guess all problem types except sizing get empty mass, payload and reserves. -/
theorem initGuess_mass_values (i : GuessIn) (g g' : Guess) (h : initGuess i g = .ok g') :
    (∀ m, i.missionGross = some m → 0 < m → g'.takeoffMass = m) ∧
    (i.missionGross = none → 0 < i.designGross → g'.takeoffMass = i.designGross) ∧
    (∀ m, (i.missionGross = some m ∨ i.missionGross = none ∧ i.designGross = m) → m ≤ 0 →
      (i.prob = .offDesignMinFuel →
        g'.takeoffMass = g'.oem + i.pax * i.paxMass + i.pax * g'.burn * i.range + g'.reserves) ∧
      (i.prob = .sizing ∨ i.prob = .offDesignMaxRange → g'.takeoffMass = i.designGross) ∧
      (i.prob = .other → g'.takeoffMass = m)) ∧
    (g.cruiseMassFinal = 0 → i.prob ≠ .sizing → g'.cruiseMassFinal = g'.oem + i.pax * i.paxMass + g'.reserves) ∧
    g'.oem = g.oem := by
  unfold initGuess at h
  cases hr : guessReserves i g with
  | error e => simp [hr] at h
  | ok r =>
    simp only [hr, Except.ok.injEq] at h
    subst h
    simp only
    refine ⟨?_, ?_, ?_, ?_, trivial⟩
    · intro m hm hpos; simp only [guessMass, hm]; rw [if_neg (by linarith)]
    · intro hm hpos; simp only [guessMass, hm]; rw [if_neg (by linarith)]
    · intro m hm hneg
      rcases hm with hm | ⟨hm, hd⟩
      · refine ⟨?_, ?_, ?_⟩
        · intro hp; simp only [guessMass, hm, hp]; rw [if_pos hneg]; ring
        · rintro (hp | hp) <;> · simp only [guessMass, hm, hp]; rw [if_pos hneg]
        · intro hp; simp only [guessMass, hm, hp]; rw [if_pos hneg]
      · rw [← hd] at hneg ⊢
        refine ⟨?_, ?_, ?_⟩
        · intro hp; simp only [guessMass, hm, hp]; rw [if_pos hneg]; ring
        · rintro (hp | hp) <;> · simp only [guessMass, hm, hp]; rw [if_pos hneg]
        · intro hp; simp only [guessMass, hm, hp]; rw [if_pos hneg]
    · intro h0 hp
      simp only [guessCruiseMass, if_pos h0]
      cases hq : i.prob with
      | sizing => exact absurd hq hp
      | offDesignMinFuel => simp only; rw [if_pos (by norm_num)]
      | offDesignMaxRange => simp only; rw [if_pos h0.le]
      | other => simp only; rw [if_pos h0.le]

/-- **C30 (default duration and climb, values).** With the design Mach number (the cruise Mach number if there is none) `M`: the default duration
covers the range at `667 M` knots; the climb angle has sine `T/(2 W)`, at most 1, with `T` the scaled thrust of all engines; the average speed is
half of `667 M`; the default climb range is what this speed covers horizontally. -/
theorem initGuess_default_values (i : GuessIn) (g g' : Guess) (h : initGuess i g = .ok g') (M T s : ℝ)
    (hM : i.mach = some M ∨ i.mach = none ∧ i.cruiseMach = M) (hpos : 0 < M)
    (hT : T = (i.engines.map (fun e => e.1 * e.2.1 * e.2.2)).sum) (hTp : 0 < T) (hW : 0 < g'.takeoffMass)
    (hs : s = min (T / (2 * g'.takeoffMass)) 1) :
    (g.duration ≤ 0 → g'.duration / 3600 * (667 * M) = i.range) ∧
    (g.timeToClimb ≤ 0 → g'.timeToClimb * (667 / 2 * M * s) = i.cruiseAlt) ∧
    (g.climbRange ≤ 0 → g'.climbRange = g'.timeToClimb / 3600 * (667 / 2 * M) * √(1 - s ^ 2)) ∧
    (0 < g.climbRange → g'.climbRange = g.climbRange) := by
  have hmach : guessMach i = M := by rcases hM with hm | ⟨hm, hc⟩ <;> simp [guessMach, hm]; exact hc
  unfold initGuess at h
  cases hr : guessReserves i g with
  | error e => simp [hr] at h
  | ok r =>
    simp only [hr, Except.ok.injEq] at h
    subst h
    simp only at hW hs ⊢
    set W := guessMass i g r with hWd
    have hTt : totalThrust i = T := hT.symm
    obtain ⟨hsp, hse, -⟩ := guessGamma_range i W hW (by rw [hTt]; exact hTp)
    have hs' : sin (guessGamma i W) = s := by rw [hse, hs, hTt]; congr 1; field_simp; norm_num
    have hcos : cos (guessGamma i W) = √(1 - s ^ 2) := by
      rw [← hs', guessGamma, cos_arcsin, sin_arcsin]
      · exact le_min (le_max_right _ _) (by norm_num)
      · exact min_le_right _ _
    rw [hs'] at hsp
    refine ⟨?_, ?_, ?_, ?_⟩
    · intro hd; rw [guessDuration, if_pos hd, hmach]; field_simp; norm_num
    · intro hd; rw [guessClimbTime, if_pos hd, guessSpeed, hmach, hs']; field_simp; ring
    · intro hd; rw [guessClimbRange, if_pos hd, guessSpeed, hmach, hcos]; ring
    · intro hd; rw [guessClimbRange, if_neg (by linarith)]

/-- **C30 (climb).** For sensible inputs and a positive take-off mass the climb guesses exist and are positive
(time) and non-negative (range), however large the thrust-to-weight ratio. -/
theorem initGuess_climb_pos (i : GuessIn) (hi : i.Sane) (g g' : Guess) (h : initGuess i g = .ok g')
    (hm : 0 < g'.takeoffMass) : 0 < g'.timeToClimb ∧ 0 ≤ g'.climbRange := by
  unfold initGuess at h
  cases hr : guessReserves i g with
  | error e => simp [hr] at h
  | ok r =>
    simp only [hr, Except.ok.injEq] at h
    subst h
    simp only at hm ⊢
    obtain ⟨h1, _, h2⟩ := guessGamma_range i _ hm hi.thrust
    have hs : 0 < guessSpeed i := by unfold guessSpeed; have := hi.mach; positivity
    have ht : 0 < guessClimbTime i g (guessMass i g r) := by
      have := hi.alt
      unfold guessClimbTime
      split
      · positivity
      · rename_i h3; have h3 := not_le.1 h3
        split
        · positivity
        · split
          · positivity
          · exact h3
    refine ⟨ht, ?_⟩
    unfold guessClimbRange
    split
    · positivity
    · rename_i h3; exact (not_le.1 h3).le

/-- feet per second in one knot (1852 m / 0.3048 m / 3600 s). -/
noncomputable def ftPerSecPerKnot : ℝ := 1852 / 0.3048 / 3600

/-- **C30 violated (units).** The default climb time divides feet by knots: climbing for that many seconds at
the vertical speed used (`speed · sin γ` knots) covers 1852/(0.3048·3600) ≈ 1.69 times the cruise altitude. -/
theorem initGuess_climb_units_violated (i : GuessIn) (hi : i.Sane) (g g' : Guess)
    (hg : g.timeToClimb ≤ 0) (h : initGuess i g = .ok g') (hm : 0 < g'.takeoffMass) :
    g'.timeToClimb * (guessSpeed i * ftPerSecPerKnot * sin (guessGamma i g'.takeoffMass))
      = ftPerSecPerKnot * i.cruiseAlt ∧ 1.68 < ftPerSecPerKnot := by
  refine ⟨?_, by unfold ftPerSecPerKnot; norm_num⟩
  unfold initGuess at h
  cases hr : guessReserves i g with
  | error e => simp [hr] at h
  | ok r =>
    simp only [hr, Except.ok.injEq] at h
    subst h
    simp only at hm ⊢
    obtain ⟨h1, _, _⟩ := guessGamma_range i _ hm hi.thrust
    have hs : 0 < guessSpeed i := by unfold guessSpeed; have := hi.mach; positivity
    unfold guessClimbTime
    rw [if_pos hg]
    field_simp

/-- Inputs of a concrete aircraft. -/
noncomputable def demoIn : GuessIn :=
  ⟨.sizing, 100, 5, 0, 1000, 200, some 150000, 150000, none, 0.8, 30000, [(20000, 1, 2)]⟩

noncomputable def demoGuess : Guess := ⟨0, 0, 80000, 0.1, 0, 0, 0, 0, 0⟩

theorem demoIn_sane : demoIn.Sane := by
  constructor <;> norm_num [demoIn, guessMach, totalThrust]

/-- **C30 violated (repeatability).** Guessing is not idempotent: reserves set to 5 lbm by the first call are
read as a fraction by a second call. -/
theorem initGuess_not_idempotent : ∃ (i : GuessIn) (g g1 g2 : Guess), i.Sane ∧
    initGuess i g = .ok g1 ∧ initGuess i g1 = .ok g2 ∧ g1.reserves = 5 ∧ g2.reserves = 50000 := by
  have hb : guessBurn demoGuess = 0.1 := by norm_num [guessBurn, demoGuess]
  have h1 : guessReserves demoIn demoGuess = .ok 5 := by
    simp [guessReserves, demoGuess, demoIn]
  obtain ⟨g1, hg1⟩ : ∃ g1, initGuess demoIn demoGuess = .ok g1 := by
    cases h : initGuess demoIn demoGuess with
    | ok g => exact ⟨g, rfl⟩
    | error e =>
      have := (initGuess_error_iff demoIn demoGuess).1 ⟨e, h⟩
      norm_num [demoGuess] at this
  have e1 : g1.reserves = 5 ∧ g1.burn = 0.1 := by
    unfold initGuess at hg1; rw [h1] at hg1; simp only [Except.ok.injEq] at hg1
    subst hg1; exact ⟨rfl, hb⟩
  have hb1 : guessBurn g1 = 0.1 := by unfold guessBurn; rw [e1.2]; norm_num
  have h2 : guessReserves demoIn g1 = .ok 50000 := by
    unfold guessReserves; rw [e1.1, hb1]
    norm_num [demoIn]
  obtain ⟨g2, hg2⟩ : ∃ g2, initGuess demoIn g1 = .ok g2 := by
    cases h : initGuess demoIn g1 with
    | ok g => exact ⟨g, rfl⟩
    | error e =>
      have := (initGuess_error_iff demoIn g1).1 ⟨e, h⟩
      rw [e1.1] at this; norm_num at this
  refine ⟨demoIn, demoGuess, g1, g2, demoIn_sane, hg1, hg2, e1.1, ?_⟩
  unfold initGuess at hg2; rw [h2] at hg2; simp only [Except.ok.injEq] at hg2
  subst hg2; rfl

example : demoIn.Sane ∧ ∃ g', initGuess demoIn demoGuess = .ok g' ∧ 0 < g'.takeoffMass := by
  refine ⟨demoIn_sane, ?_⟩
  cases h : initGuess demoIn demoGuess with
  | ok g => exact ⟨g, rfl, by rw [(initGuess_fractions demoIn demoGuess g 150000 rfl (by norm_num) h).1]; norm_num⟩
  | error e =>
    have := (initGuess_error_iff demoIn demoGuess).1 ⟨e, h⟩
    norm_num [demoGuess] at this

end Verif
