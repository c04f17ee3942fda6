import Verif.Model.LowSpeedTraj
import Mathlib.Data.Real.Basic
import Mathlib.Tactic.Linarith
import Mathlib.Tactic.NormNum

/-! ## C105: the trajectories of detailed takeoff and landing -/

namespace Verif.LowSpeed

/-- Values of every variable at the start (`false`) and the end (`true`) of every phase. -/
abbrev Sol := String → Bool → Var → ℝ

/-- A solution meets every link and every linkage constraint of a trajectory. -/
def Meets (s : Sol) (b : Built) : Prop :=
  (∀ l ∈ b.links, ∀ v ∈ l.vars, s l.a true v = s l.b false v) ∧
    ∀ f ∈ b.finals, s f.1 true f.2.2 = s f.2.1 true f.2.2

/-- A phase meets a request of its builder. -/
def MeetsReq (start stop : Var → ℝ) : Req → Prop
  | .durationAtLeast q => (q : ℝ) ≤ stop .time - start .time
  | .durationFixed => True
  | .upper v q => start v ≤ q ∧ stop v ≤ q
  | .lower v q => (q : ℝ) ≤ start v ∧ (q : ℝ) ≤ stop v
  | .finalEquals v q => stop v = q
  | .finalAtLeast v q => (q : ℝ) / 100 ≤ stop v

/-- A solution also meets what the builders of the phases ask for. -/
def Feasible (s : Sol) (b : Built) : Prop :=
  Meets s b ∧ ∀ p ∈ b.phases, ∀ r ∈ reqs p.2.kind, MeetsReq (s p.1 false) (s p.1 true) r

/-- What a phase adds to a variable. -/
def gain (s : Sol) (v : Var) (n : String) : ℝ := s n true v - s n false v

/-- The value at the end of each phase of a list is the one at the start of the next. -/
def Continuous (s : Sol) (v : Var) : List String → Prop
  | a :: b :: l => s a true v = s b false v ∧ Continuous s v (b :: l)
  | _ => True

/-- **Property.**  Along phases joined in a variable, what the single phases add, summed, is what
the whole adds. -/
theorem gain_sum (s : Sol) (v : Var) (a : String) (l : List String)
    (h : Continuous s v (a :: l)) :
    ((a :: l).map (gain s v)).sum = s ((a :: l).getLast (by simp)) true v - s a false v := by
  induction l generalizing a with
  | nil => simp [gain]
  | cons b l ih =>
    have := ih b h.2
    simp only [List.map_cons, List.sum_cons] at this ⊢
    rw [List.getLast_cons (by simp), this, gain, h.1]
    linarith

/-- Names of the builders that are there. -/
def names (l : List (Option Builder)) : List String := l.filterMap (·.map (·.name))

/-- The builders of the flown takeoff, in order. -/
def Takeoff.flown (t : Takeoff) : List (Option Builder) :=
  [t.release, t.decision, t.rotate, t.liftoff] ++
    if t.micP2.isSome then [t.micP2, t.cutbackStart, t.cutback, t.micP1, t.climb] else []

/-- The builders of the aborted takeoff after the decision speed. -/
def Takeoff.aborted (t : Takeoff) : List (Option Builder) :=
  if t.brake.isSome then [t.brake, t.abort] else []

/-- The builders of the landing, in order. -/
def Landing.flown (t : Landing) : List (Option Builder) :=
  (if t.approach.isSome then [t.approach, t.micP3] else []) ++
    [t.obstacle, t.flare, t.touchdown, t.noseDown]

/-! ### When a trajectory can be built -/

/-- **Property.**  A takeoff can be built exactly when the four phases to the obstacle are set, the
remaining four acoustic phases are set if the first of them is, and the abort is set if the brake
delay is. -/
theorem takeoff_ok_iff (t : Takeoff) :
    (∃ b, t.build = .ok b) ↔ ∀ o ∈ t.flown ++ t.aborted, o ≠ none := by
  obtain ⟨a, b, c, d, e, f, g, h, i, j, k⟩ := t
  rcases a with _ | a <;> rcases b with _ | b <;> rcases c with _ | c <;> rcases d with _ | d <;>
    (try (simp [Takeoff.build, Takeoff.addPhases, Takeoff.flown, addPhase, bind, Except.bind];
          done)) <;>
  rcases e with _ | e <;> rcases j with _ | j <;> rcases k with _ | k <;>
    (try (simp [Takeoff.build, Takeoff.addPhases, Takeoff.linkPhases, Takeoff.flown, nameOf,
      Takeoff.aborted, addPhase, bind, Except.bind, pure, Except.pure]; done)) <;>
  rcases f with _ | f <;> rcases g with _ | g <;> rcases h with _ | h <;> rcases i with _ | i <;>
    simp [Takeoff.build, Takeoff.addPhases, Takeoff.linkPhases, Takeoff.flown, nameOf,
      Takeoff.aborted, addPhase, bind, Except.bind, pure, Except.pure]

/-- **Property.**  A landing can be built exactly when the four phases from the obstacle are set and
the phase from the microphone is set if the approach is. -/
theorem landing_ok_iff (t : Landing) :
    (∃ b, t.build = .ok b) ↔ ∀ o ∈ t.flown, o ≠ none := by
  obtain ⟨a, b, c, d, e, f⟩ := t
  rcases a with _ | a <;> rcases b with _ | b <;> rcases c with _ | c <;> rcases d with _ | d <;>
    rcases e with _ | e <;> rcases f with _ | f <;>
    simp [Landing.build, Landing.addPhases, Landing.linkPhases, Landing.flown, nameOf,
      addPhase, bind, Except.bind, pure, Except.pure]

/-! ### Which phases there are -/

/-- Adding builders one after the other. -/
def putAll (d : List (String × Builder)) (l : List (Option Builder)) : List (String × Builder) :=
  (l.filterMap id).foldl put d

section
attribute [local irreducible] put

/-- What a built takeoff is made of. -/
theorem takeoff_shape {t : Takeoff} {b : Built} (h : t.build = .ok b) :
    ∃ r d o l : Builder, t.release = some r ∧ t.decision = some d ∧ t.rotate = some o ∧
      t.liftoff = some l ∧
      ∃ ac : List Builder, ∃ acl : List Link, ∃ ab : List Builder, ∃ abl : List Link,
        ∃ fin : List (String × String × Var),
        t.flown = (r :: d :: o :: l :: ac).map some ∧ t.aborted = ab.map some ∧
        b = ⟨putAll [] (t.flown ++ t.aborted),
          [⟨r.name, d.name, basicVars⟩, ⟨d.name, o.name, extVars⟩, ⟨o.name, l.name, extVars⟩] ++
            acl ++ abl, fin⟩ ∧
        ((t.micP2 = none ∧ ac = [] ∧ acl = []) ∨
          ∃ m₂ cs c m₁ cl : Builder, t.micP2 = some m₂ ∧ ac = [m₂, cs, c, m₁, cl] ∧
            acl = [⟨l.name, m₂.name, acousticVars⟩, ⟨m₂.name, cs.name, acousticVars⟩,
              ⟨cs.name, c.name, acousticVars⟩, ⟨c.name, m₁.name, acousticVars⟩,
              ⟨m₁.name, cl.name, acousticVars⟩]) ∧
        ((t.brake = none ∧ ab = [] ∧ abl = [] ∧ fin = []) ∨
          ∃ br st : Builder, t.brake = some br ∧ t.abort = some st ∧ ab = [br, st] ∧
            abl = [⟨r.name, br.name, basicVars⟩, ⟨br.name, st.name, basicVars⟩] ∧
            fin = [(st.name, l.name, .distance)]) := by
  have hn := (takeoff_ok_iff t).1 ⟨b, h⟩
  obtain ⟨r, d, o, l, e, f, g, m, i, j, k⟩ := t
  rcases r with _ | r
  · exact absurd rfl (hn none (by simp [Takeoff.flown]))
  rcases d with _ | d
  · exact absurd rfl (hn none (by simp [Takeoff.flown]))
  rcases o with _ | o
  · exact absurd rfl (hn none (by simp [Takeoff.flown]))
  rcases l with _ | l
  · exact absurd rfl (hn none (by simp [Takeoff.flown]))
  refine ⟨r, d, o, l, rfl, rfl, rfl, rfl, ?_⟩
  rcases e with _ | e
  · rcases j with _ | j
    · refine ⟨[], [], [], [], [], rfl, rfl, ?_, .inl ⟨rfl, rfl, rfl⟩, .inl ⟨rfl, rfl, rfl, rfl⟩⟩
      exact (Except.ok.inj h).symm
    · rcases k with _ | k
      · exact absurd rfl (hn none (by simp [Takeoff.aborted]))
      refine ⟨[], [], [j, k], _, _, rfl, rfl, ?_, .inl ⟨rfl, rfl, rfl⟩,
        .inr ⟨j, k, rfl, rfl, rfl, rfl, rfl⟩⟩
      exact (Except.ok.inj h).symm
  · rcases f with _ | f
    · exact absurd rfl (hn none (by simp [Takeoff.flown]))
    rcases g with _ | g
    · exact absurd rfl (hn none (by simp [Takeoff.flown]))
    rcases m with _ | m
    · exact absurd rfl (hn none (by simp [Takeoff.flown]))
    rcases i with _ | i
    · exact absurd rfl (hn none (by simp [Takeoff.flown]))
    rcases j with _ | j
    · refine ⟨[e, f, g, m, i], _, [], [], [], rfl, rfl, ?_,
        .inr ⟨e, f, g, m, i, rfl, rfl, rfl⟩, .inl ⟨rfl, rfl, rfl, rfl⟩⟩
      exact (Except.ok.inj h).symm
    · rcases k with _ | k
      · exact absurd rfl (hn none (by simp [Takeoff.aborted]))
      refine ⟨[e, f, g, m, i], _, [j, k], _, _, rfl, rfl, ?_,
        .inr ⟨e, f, g, m, i, rfl, rfl, rfl⟩, .inr ⟨j, k, rfl, rfl, rfl, rfl, rfl⟩⟩
      exact (Except.ok.inj h).symm

/-- What a built landing is made of. -/
theorem landing_shape {t : Landing} {b : Built} (h : t.build = .ok b) :
    ∃ o f d n : Builder, t.obstacle = some o ∧ t.flare = some f ∧ t.touchdown = some d ∧
      t.noseDown = some n ∧ ∃ ap : List Builder, ∃ apl : List Link,
        t.flown = (ap ++ [o, f, d, n]).map some ∧
        b = ⟨putAll [] t.flown, apl ++ [⟨o.name, f.name, extVars ++ [.altitude]⟩,
          ⟨f.name, d.name, extVars⟩, ⟨d.name, n.name, basicVars⟩], []⟩ ∧
        ((t.approach = none ∧ ap = [] ∧ apl = []) ∨
          ∃ a m : Builder, t.approach = some a ∧ t.micP3 = some m ∧ ap = [a, m] ∧
            apl = [⟨m.name, o.name, obstacleVars⟩,
              ⟨a.name, m.name, obstacleVars ++ [.distance, .velocity]⟩]) := by
  have hn := (landing_ok_iff t).1 ⟨b, h⟩
  obtain ⟨a, m, o, f, d, n⟩ := t
  rcases o with _ | o
  · exact absurd rfl (hn none (by simp [Landing.flown]))
  rcases f with _ | f
  · exact absurd rfl (hn none (by simp [Landing.flown]))
  rcases d with _ | d
  · exact absurd rfl (hn none (by simp [Landing.flown]))
  rcases n with _ | n
  · exact absurd rfl (hn none (by simp [Landing.flown]))
  refine ⟨o, f, d, n, rfl, rfl, rfl, rfl, ?_⟩
  rcases a with _ | a
  · exact ⟨[], [], rfl, (Except.ok.inj h).symm, .inl ⟨rfl, rfl, rfl⟩⟩
  · rcases m with _ | m
    · exact absurd rfl (hn none (by simp [Landing.flown]))
    exact ⟨[a, m], _, rfl, (Except.ok.inj h).symm, .inr ⟨a, m, rfl, rfl, rfl, rfl⟩⟩

end

/-- Keys of the dictionary of phases. -/
def keys (d : List (String × Builder)) : List String := d.map (·.1)

theorem keys_put (d : List (String × Builder)) (b : Builder) :
    keys (put d b) = if b.name ∈ keys d then keys d else keys d ++ [b.name] := by
  have hm : (d.any fun p => p.1 == b.name) = true ↔ b.name ∈ keys d := by
    simp only [List.any_eq_true, beq_iff_eq, keys, List.mem_map]
  unfold put
  by_cases h : b.name ∈ keys d
  · rw [if_pos (hm.2 h), if_pos h]
    simp only [keys, List.map_map]
    refine List.map_congr_left fun p _ => ?_
    simp only [Function.comp]
    split <;> rfl
  · rw [if_neg (fun c => h (hm.1 c)), if_neg h]
    simp [keys]

theorem nodup_put (d : List (String × Builder)) (b : Builder) (h : (keys d).Nodup) :
    (keys (put d b)).Nodup := by
  rw [keys_put]
  split
  · exact h
  · rename_i hb
    rw [List.nodup_append]
    refine ⟨h, by simp, ?_⟩
    intro a ha c hc
    rw [List.mem_singleton.1 hc]
    exact fun e => hb (e ▸ ha)

theorem keys_foldl_mem (l : List Builder) (d : List (String × Builder)) (n : String) :
    n ∈ keys (l.foldl put d) ↔ n ∈ keys d ∨ n ∈ l.map (·.name) := by
  induction l generalizing d with
  | nil => simp
  | cons b l ih =>
    rw [List.foldl_cons, ih, keys_put]
    by_cases h : b.name ∈ keys d
    · rw [if_pos h]
      constructor
      · rintro (c | c)
        · exact .inl c
        · exact .inr (List.mem_cons_of_mem _ c)
      · rintro (c | c)
        · exact .inl c
        · rcases List.mem_cons.1 c with c | c
          · exact .inl (c ▸ h)
          · exact .inr c
    · rw [if_neg h]
      simp [or_assoc]

theorem nodup_foldl (l : List Builder) (d : List (String × Builder)) (h : (keys d).Nodup) :
    (keys (l.foldl put d)).Nodup := by
  induction l generalizing d with
  | nil => exact h
  | cons b l ih => exact ih _ (nodup_put d b h)

theorem foldl_distinct (l : List Builder) (d : List (String × Builder))
    (h : (keys d ++ l.map (·.name)).Nodup) :
    l.foldl put d = d ++ l.map fun b => (b.name, b) := by
  induction l generalizing d with
  | nil => simp
  | cons b l ih =>
    have hb : b.name ∉ keys d := by
      intro c
      rw [List.nodup_append] at h
      exact h.2.2 _ c _ (by simp) rfl
    have e : put d b = d ++ [(b.name, b)] := by
      unfold put
      rw [if_neg]
      simp only [List.any_eq_true, beq_iff_eq, not_exists, not_and]
      intro p hp c
      exact hb (c ▸ List.mem_map.2 ⟨p, hp, rfl⟩)
    rw [List.foldl_cons, ih, e]
    · simp
    · rw [e]
      simpa [keys] using h

/-- **Property.**  With distinct names the phases of a takeoff are those of the flown takeoff and
then those of the aborted one, in order, each under the name of its builder. -/
theorem takeoff_phases {t : Takeoff} {b : Built} (h : t.build = .ok b)
    (hd : (names (t.flown ++ t.aborted)).Nodup) :
    b.phases = ((t.flown ++ t.aborted).filterMap id).map fun b => (b.name, b) := by
  obtain ⟨r, d, o, l, _, _, _, _, ac, acl, ab, abl, fin, hf, ha, rfl, _⟩ := takeoff_shape h
  refine (foldl_distinct _ [] ?_).trans (List.nil_append _)
  simpa [keys, names, List.filterMap_map, List.map_filterMap, Function.comp_def] using hd

/-- **Property.**  With distinct names the phases of a landing are its builders, in order. -/
theorem landing_phases {t : Landing} {b : Built} (h : t.build = .ok b)
    (hd : (names t.flown).Nodup) :
    b.phases = (t.flown.filterMap id).map fun b => (b.name, b) := by
  obtain ⟨o, f, d, n, _, _, _, _, ap, apl, hf, rfl, _⟩ := landing_shape h
  refine (foldl_distinct _ [] ?_).trans (List.nil_append _)
  simpa [keys, names, List.filterMap_map, List.map_filterMap, Function.comp_def] using hd

/-- **Property.**  Whatever the names, every phase is kept under one name only, and both ends of
every link and constraint are phases. -/
theorem takeoff_ends {t : Takeoff} {b : Built} (h : t.build = .ok b) :
    (keys b.phases).Nodup ∧ (∀ l ∈ b.links, l.a ∈ keys b.phases ∧ l.b ∈ keys b.phases) ∧
      ∀ f ∈ b.finals, f.1 ∈ keys b.phases ∧ f.2.1 ∈ keys b.phases := by
  obtain ⟨r, d, o, l, _, _, _, _, ac, acl, ab, abl, fin, hf, ha, rfl, h1, h2⟩ := takeoff_shape h
  refine ⟨nodup_foldl _ _ (by simp [keys]), ?_, ?_⟩
  all_goals
    simp only [putAll, hf, ha, keys_foldl_mem]
    rcases h1 with ⟨_, rfl, rfl⟩ | ⟨m₂, cs, c, m₁, cl, _, rfl, rfl⟩ <;>
      rcases h2 with ⟨_, rfl, rfl, rfl⟩ | ⟨br, st, _, _, rfl, rfl, rfl⟩ <;> simp

/-- **Property.**  The same for a landing. -/
theorem landing_ends {t : Landing} {b : Built} (h : t.build = .ok b) :
    (keys b.phases).Nodup ∧ (∀ l ∈ b.links, l.a ∈ keys b.phases ∧ l.b ∈ keys b.phases) ∧
      b.finals = [] := by
  obtain ⟨o, f, d, n, _, _, _, _, ap, apl, hf, rfl, h1⟩ := landing_shape h
  refine ⟨nodup_foldl _ _ (by simp [keys]), ?_, rfl⟩
  simp only [putAll, hf, keys_foldl_mem]
  rcases h1 with ⟨_, rfl, rfl⟩ | ⟨a, m, _, _, rfl, rfl⟩ <;> simp

/-! ### Continuity -/

/-- **Property.**  Time, distance, speed and mass are continuous along the flown takeoff. -/
theorem takeoff_continuous {t : Takeoff} {b : Built} (h : t.build = .ok b) {s : Sol}
    (hs : Meets s b) {v : Var} (hv : v ∈ basicVars) : Continuous s v (names t.flown) := by
  obtain ⟨r, d, o, l, _, _, _, _, ac, acl, ab, abl, fin, hf, ha, rfl, h1, -⟩ := takeoff_shape h
  have k : ∀ a b w, v ∈ w → (⟨a, b, w⟩ : Link) ∈
      ([⟨r.name, d.name, basicVars⟩, ⟨d.name, o.name, extVars⟩, ⟨o.name, l.name, extVars⟩] ++
        acl ++ abl) → s a true v = s b false v := fun a b w hw hm => hs.1 _ hm v hw
  have e : v ∈ extVars := List.mem_append_left _ hv
  have q : v ∈ acousticVars := List.mem_append_left _ e
  rw [hf]
  rcases h1 with ⟨_, rfl, rfl⟩ | ⟨m₂, cs, c, m₁, cl, _, rfl, rfl⟩
  · exact ⟨k _ _ _ hv (by simp), k _ _ _ e (by simp), k _ _ _ e (by simp), trivial⟩
  · exact ⟨k _ _ _ hv (by simp), k _ _ _ e (by simp), k _ _ _ e (by simp), k _ _ _ q (by simp),
      k _ _ _ q (by simp), k _ _ _ q (by simp), k _ _ _ q (by simp), k _ _ _ q (by simp), trivial⟩

/-- **Property.**  The angle of attack is continuous from the decision speed on, the altitude and
the flight path angle from liftoff on. -/
theorem takeoff_continuous_air {t : Takeoff} {b : Built} (h : t.build = .ok b) {s : Sol}
    (hs : Meets s b) :
    Continuous s .aoa (names t.flown).tail ∧ Continuous s .altitude ((names t.flown).drop 3) ∧
      Continuous s .fpa ((names t.flown).drop 3) := by
  obtain ⟨r, d, o, l, _, _, _, _, ac, acl, ab, abl, fin, hf, ha, rfl, h1, -⟩ := takeoff_shape h
  have k : ∀ v a b w, v ∈ w → (⟨a, b, w⟩ : Link) ∈
      ([⟨r.name, d.name, basicVars⟩, ⟨d.name, o.name, extVars⟩, ⟨o.name, l.name, extVars⟩] ++
        acl ++ abl) → s a true v = s b false v := fun v a b w hw hm => hs.1 _ hm v hw
  have e : Var.aoa ∈ extVars := by decide
  have q : Var.aoa ∈ acousticVars := by decide
  have q1 : Var.altitude ∈ acousticVars := by decide
  have q2 : Var.fpa ∈ acousticVars := by decide
  rw [hf]
  rcases h1 with ⟨_, rfl, rfl⟩ | ⟨m₂, cs, c, m₁, cl, _, rfl, rfl⟩
  · exact ⟨⟨k _ _ _ _ e (by simp), k _ _ _ _ e (by simp), trivial⟩, trivial, trivial⟩
  · exact ⟨⟨k _ _ _ _ e (by simp), k _ _ _ _ e (by simp), k _ _ _ _ q (by simp),
      k _ _ _ _ q (by simp), k _ _ _ _ q (by simp), k _ _ _ _ q (by simp), k _ _ _ _ q (by simp),
      trivial⟩,
      ⟨k _ _ _ _ q1 (by simp), k _ _ _ _ q1 (by simp), k _ _ _ _ q1 (by simp),
        k _ _ _ _ q1 (by simp), k _ _ _ _ q1 (by simp), trivial⟩,
      ⟨k _ _ _ _ q2 (by simp), k _ _ _ _ q2 (by simp), k _ _ _ _ q2 (by simp),
        k _ _ _ _ q2 (by simp), k _ _ _ _ q2 (by simp), trivial⟩⟩

/-- **Property.**  Time, distance, speed and mass are continuous along the aborted takeoff, which
leaves the flown one at the decision speed. -/
theorem abort_continuous {t : Takeoff} {b : Built} (h : t.build = .ok b) {s : Sol}
    (hs : Meets s b) {v : Var} (hv : v ∈ basicVars) :
    Continuous s v (names (t.release :: t.aborted)) := by
  obtain ⟨r, d, o, l, hr, _, _, _, ac, acl, ab, abl, fin, hf, ha, rfl, -, h2⟩ := takeoff_shape h
  have k : ∀ a b w, v ∈ w → (⟨a, b, w⟩ : Link) ∈
      ([⟨r.name, d.name, basicVars⟩, ⟨d.name, o.name, extVars⟩, ⟨o.name, l.name, extVars⟩] ++
        acl ++ abl) → s a true v = s b false v := fun a b w hw hm => hs.1 _ hm v hw
  rw [hr, ha]
  rcases h2 with ⟨_, rfl, rfl, rfl⟩ | ⟨br, st, _, _, rfl, rfl, rfl⟩
  · trivial
  · exact ⟨k _ _ _ hv (by simp), k _ _ _ hv (by simp), trivial⟩

/-- **Property.**  Balanced field: the distance over which the aborted takeoff goes on from the
decision speed and brakes is the distance over which the other goes on, rotates and climbs to the
obstacle. -/
theorem balanced_field {t : Takeoff} {b : Built} (h : t.build = .ok b) {s : Sol} (hs : Meets s b)
    (hb : t.brake.isSome) :
    ((names t.aborted).map (gain s .distance)).sum =
      ((names [t.decision, t.rotate, t.liftoff]).map (gain s .distance)).sum := by
  have hc := takeoff_continuous h hs (v := .distance) (by decide)
  have ha := abort_continuous h hs (v := .distance) (by decide)
  obtain ⟨r, d, o, l, hr, hd, ho, hl, ac, acl, ab, abl, fin, hf, hab, rfl, h1, h2⟩ :=
    takeoff_shape h
  rcases h2 with ⟨c, _⟩ | ⟨br, st, _, _, rfl, rfl, rfl⟩
  · rw [c] at hb
    exact absurd hb (by simp)
  have hfin := hs.2 (st.name, l.name, .distance) (by simp)
  rw [hr, hab] at ha
  rw [hf] at hc
  simp only [names, List.map_cons, List.filterMap_cons, Option.map_some, Continuous,
    List.map_nil, List.filterMap_nil] at hc ha
  rw [hab, hd, ho, hl]
  simp only [names, List.map_cons, List.filterMap_cons, Option.map_some, List.map_nil,
    List.filterMap_nil, List.sum_cons, List.sum_nil, gain]
  obtain ⟨c1, c2, c3, -⟩ := hc
  obtain ⟨a1, a2, -⟩ := ha
  simp only at hfin
  linarith

/-- **Property.**  Time, mass, altitude and angle of attack are continuous along the landing down
to the flare, time and mass to the stop. -/
theorem landing_continuous {t : Landing} {b : Built} (h : t.build = .ok b) {s : Sol}
    (hs : Meets s b) {v : Var} (hv : v ∈ [Var.time, Var.mass]) :
    Continuous s v (names t.flown) := by
  obtain ⟨o, f, d, n, _, _, _, _, ap, apl, hf, rfl, h1⟩ := landing_shape h
  have k : ∀ a b w, v ∈ w → (⟨a, b, w⟩ : Link) ∈
      (apl ++ [⟨o.name, f.name, extVars ++ [.altitude]⟩, ⟨f.name, d.name, extVars⟩,
        ⟨d.name, n.name, basicVars⟩]) → s a true v = s b false v :=
    fun a b w hw hm => hs.1 _ hm v hw
  have hb : v ∈ basicVars ∧ v ∈ obstacleVars := by
    clear k
    simp only [List.mem_cons, List.not_mem_nil, or_false] at hv
    rcases hv with rfl | rfl <;> decide
  have e : v ∈ extVars := List.mem_append_left _ hb.1
  rw [hf]
  rcases h1 with ⟨_, rfl, rfl⟩ | ⟨a, m, _, _, rfl, rfl⟩
  · exact ⟨k _ _ (extVars ++ [.altitude]) (List.mem_append_left _ e) (by simp), k _ _ _ e (by simp),
      k _ _ _ hb.1 (by simp), trivial⟩
  · exact ⟨k _ _ (obstacleVars ++ [.distance, .velocity]) (List.mem_append_left _ hb.2) (by simp),
      k _ _ obstacleVars hb.2 (by simp),
      k _ _ (extVars ++ [.altitude]) (List.mem_append_left _ e) (by simp), k _ _ _ e (by simp),
      k _ _ _ hb.1 (by simp), trivial⟩

/-- **Property.**  The altitude is continuous down to the touchdown, where it is not a state any
more. -/
theorem landing_altitude {t : Landing} {b : Built} (h : t.build = .ok b) {s : Sol}
    (hs : Meets s b) : Continuous s .altitude (names t.flown).dropLast.dropLast := by
  obtain ⟨o, f, d, n, _, _, _, _, ap, apl, hf, rfl, h1⟩ := landing_shape h
  have k : ∀ a b w, Var.altitude ∈ w → (⟨a, b, w⟩ : Link) ∈
      (apl ++ [⟨o.name, f.name, extVars ++ [.altitude]⟩, ⟨f.name, d.name, extVars⟩,
        ⟨d.name, n.name, basicVars⟩]) → s a true .altitude = s b false .altitude :=
    fun a b w hw hm => hs.1 _ hm _ hw
  rw [hf]
  rcases h1 with ⟨_, rfl, rfl⟩ | ⟨a, m, _, _, rfl, rfl⟩
  · exact ⟨k _ _ (extVars ++ [.altitude]) (by decide) (by simp), trivial⟩
  · exact ⟨k _ _ (obstacleVars ++ [.distance, .velocity]) (by decide) (by simp),
      k _ _ obstacleVars (by decide) (by simp), k _ _ (extVars ++ [.altitude]) (by decide) (by simp), trivial⟩

/-- **Property, partial.**  Distance and speed are continuous along the landing if they are so at
the obstacle: there no link carries them, both phases keep the value of their initial guess. -/
theorem landing_distance_partial {t : Landing} {b : Built} (h : t.build = .ok b) {s : Sol}
    (hs : Meets s b) {v : Var} (hv : v ∈ basicVars)
    (hj : ∀ m o, t.approach.isSome → t.micP3 = some m → t.obstacle = some o →
      s m.name true v = s o.name false v) :
    Continuous s v (names t.flown) := by
  obtain ⟨o, f, d, n, ho, _, _, _, ap, apl, hf, rfl, h1⟩ := landing_shape h
  have k : ∀ a b w, v ∈ w → (⟨a, b, w⟩ : Link) ∈
      (apl ++ [⟨o.name, f.name, extVars ++ [.altitude]⟩, ⟨f.name, d.name, extVars⟩,
        ⟨d.name, n.name, basicVars⟩]) → s a true v = s b false v :=
    fun a b w hw hm => hs.1 _ hm v hw
  have e : v ∈ extVars := List.mem_append_left _ hv
  have p : v ∈ obstacleVars ++ [.distance, .velocity] := by
    clear k e hj
    simp only [basicVars, List.mem_cons, List.not_mem_nil, or_false] at hv
    rcases hv with rfl | rfl | rfl | rfl <;> decide
  rw [hf]
  rcases h1 with ⟨_, rfl, rfl⟩ | ⟨a, m, ha, hm, rfl, rfl⟩
  · exact ⟨k _ _ (extVars ++ [.altitude]) (List.mem_append_left _ e) (by simp), k _ _ _ e (by simp),
      k _ _ _ hv (by simp), trivial⟩
  · exact ⟨k _ _ _ p (by simp), hj m o (by simp [ha]) hm ho,
      k _ _ (extVars ++ [.altitude]) (List.mem_append_left _ e) (by simp), k _ _ _ e (by simp),
      k _ _ _ hv (by simp), trivial⟩

/-- A landing with all six phases. -/
def fullLanding : Landing :=
  ⟨some ⟨"approach", .other⟩, some ⟨"mic_p3", .other⟩, some ⟨"obstacle", .other⟩,
    some ⟨"flare", .other⟩, some ⟨"touchdown", .other⟩, some ⟨"stop", .other⟩⟩

/-- **Violated.**  Every link of a landing can be met by a flight whose distance and speed jump at
the obstacle. -/
theorem landing_distance_violated :
    ∃ b s, fullLanding.build = .ok b ∧ Meets s b ∧
      ¬ Continuous s .distance (names fullLanding.flown) ∧
      ¬ Continuous s .velocity (names fullLanding.flown) := by
  refine ⟨_, fun n _ v => if (n = "approach" ∨ n = "mic_p3") ∧ (v = .distance ∨ v = .velocity)
    then 1 else 0, rfl, ⟨?_, ?_⟩, ?_, ?_⟩
  · intro l hl v hv
    simp only [fullLanding, List.mem_cons, List.cons_append, List.nil_append, List.not_mem_nil,
      or_false] at hl
    rcases hl with rfl | rfl | rfl | rfl | rfl <;> simp [obstacleVars] at hv ⊢
    · rcases hv with rfl | rfl | rfl | rfl <;> simp
  · intro f hf
    simp at hf
  · simp [names, Landing.flown, fullLanding, Continuous]
  · simp [names, Landing.flown, fullLanding, Continuous]

/-! ### Optional phases -/

/-- **Property.**  Without the phase to the P2 microphone the other acoustic phases make no
difference, and without the brake delay the abort makes none, not even to the distance. -/
theorem takeoff_ignored (t : Takeoff) (f g m i k : Option Builder) :
    (t.micP2 = none → { t with cutbackStart := f, cutback := g, micP1 := m, climb := i }.build =
      t.build) ∧
    (t.brake = none → { t with abort := k }.build = t.build) := by
  refine ⟨fun h => ?_, fun h => ?_⟩ <;>
    simp [Takeoff.build, Takeoff.addPhases, Takeoff.linkPhases, h]

/-- **Property.**  Setters of different phases can be called in either order, a later call for the
same phase replaces the earlier one. -/
theorem get_run (ops : List (Slot × Builder)) (s : Slot) :
    (Takeoff.run ops).get s = (ops.reverse.find? fun o => o.1 == s).map (·.2) := by
  have key : ∀ (ops : List (Slot × Builder)) (t : Takeoff),
      (ops.foldl (fun t o => t.set o.1 o.2) t).get s =
        ((ops.reverse.find? fun o => o.1 == s).map (·.2)).or (t.get s) := by
    intro ops
    induction ops with
    | nil => intro t; simp
    | cons o ops ih =>
      intro t
      rw [List.foldl_cons, ih, List.reverse_cons, List.find?_append]
      cases hc : ops.reverse.find? fun o => o.1 == s with
      | some x => simp
      | none =>
        obtain ⟨o1, o2⟩ := o
        cases o1 <;> cases s <;> simp [Takeoff.set, Takeoff.get]
  have := key ops {}
  rw [Takeoff.run, this]
  cases s <;> simp [Takeoff.get]

theorem ext_get {t u : Takeoff} (h : ∀ s, t.get s = u.get s) : t = u := by
  obtain ⟨⟩ := t
  obtain ⟨⟩ := u
  have a := h .release
  have b := h .decision
  have c := h .rotate
  have d := h .liftoff
  have e := h .micP2
  have f := h .cutbackStart
  have g := h .cutback
  have i := h .micP1
  have j := h .climb
  have k := h .brake
  have l := h .abort
  simp only [Takeoff.get] at a b c d e f g i j k l
  subst a b c d e f g i j k l
  rfl

/-- **Property.**  Only the last call of each setter counts for what is built. -/
theorem run_last (ops ops' : List (Slot × Builder))
    (h : ∀ s, (ops.reverse.find? fun o => o.1 == s) = ops'.reverse.find? fun o => o.1 == s) :
    (Takeoff.run ops).build = (Takeoff.run ops').build := by
  rw [ext_get (t := Takeoff.run ops) (u := Takeoff.run ops')]
  intro s
  rw [get_run, get_run, h s]

/-! ### Phases that cannot be flown -/

/-- **Property.**  Two builders of the same name at consecutive places: the one phase that is left
is linked to itself, and its duration is zero. -/
theorem same_name {t : Takeoff} {b : Built} (h : t.build = .ok b) {s : Sol} (hs : Meets s b)
    {r d : Builder} (hr : t.release = some r) (hd : t.decision = some d) (hn : r.name = d.name) :
    gain s .time r.name = 0 := by
  have hc := takeoff_continuous h hs (v := .time) (by decide)
  obtain ⟨r', d', o, l, hr', hd', ho, hl, ac, acl, ab, abl, fin, hf, hab, rfl, h1, h2⟩ :=
    takeoff_shape h
  rw [hr] at hr'
  rw [hd] at hd'
  cases hr'
  cases hd'
  rw [hf] at hc
  have := hc.1
  unfold gain
  rw [this, hn]
  simp

/-- **Property.**  The upper bound of the altitude to the obstacle is the scaling reference, so the
phase can only be flown when that reference reaches the obstacle. -/
theorem obstacle_altitude {start stop : Var → ℝ} {ref h a : ℤ}
    (hm : ∀ r ∈ reqs (.liftoffToObstacle ref h a), MeetsReq start stop r) : h + a ≤ ref := by
  have h1 := hm (.upper .altitude ref) (by simp [reqs])
  have h2 := hm (.finalEquals .altitude (h + a)) (by simp [reqs])
  simp only [MeetsReq] at h1 h2
  have := h1.2
  rw [h2] at this
  exact_mod_cast this

/-- **Violated.**  With the default reference of one foot no obstacle of thirty-five feet can be
cleared. -/
theorem obstacle_altitude_violated :
    ¬ ∃ start stop, ∀ r ∈ reqs (.liftoffToObstacle 1 35 0), MeetsReq start stop r := by
  rintro ⟨start, stop, h⟩
  have := obstacle_altitude h
  norm_num at this

/-- **Property.**  The phase to the P1 microphone and the one to the climb must be given different
ranges: with one range, the default of both, the last phase covers no distance. -/
theorem mic_range {start stop start' stop' : Var → ℝ} {q q' : ℤ}
    (hm : ∀ r ∈ reqs (.cutbackToMicP1 q), MeetsReq start stop r)
    (hm' : ∀ r ∈ reqs (.micP1ToClimb q'), MeetsReq start' stop' r)
    (hl : stop .distance = start' .distance) :
    stop' .distance - start' .distance = q' - q := by
  have h1 := hm (.finalEquals .distance q) (by simp [reqs])
  have h2 := hm' (.finalEquals .distance q') (by simp [reqs])
  simp only [MeetsReq] at h1 h2
  rw [h2, ← hl, h1]

/-- **Property.**  The brake delay keeps the constraint of the phase it is derived from: brakes are
only applied at 1.2 times the stall speed or more. -/
theorem brake_delay_speed {start stop : Var → ℝ}
    (hm : ∀ r ∈ reqs .brakeDelay, MeetsReq start stop r) : 1.2 ≤ stop .vOverStall := by
  have h1 := hm (.finalAtLeast .vOverStall 120) (by simp [reqs, speedToRotateReqs])
  simp only [MeetsReq] at h1
  norm_num at h1 ⊢
  linarith

/-- A takeoff with a balanced field. -/
def balancedTakeoff : Takeoff :=
  Takeoff.run [(.release, ⟨"release", .other⟩), (.decision, ⟨"decision", .speedToRotate⟩),
    (.rotate, ⟨"rotate", .other⟩), (.liftoff, ⟨"liftoff", .liftoffToObstacle 35 35 0⟩),
    (.brake, ⟨"brake", .brakeDelay⟩), (.abort, ⟨"abort", .other⟩)]

example : balancedTakeoff.build.toOption.isSome ∧
    (balancedTakeoff.build.toOption.map fun b => (keys b.phases, b.finals)) =
      some (["release", "decision", "rotate", "liftoff", "brake", "abort"],
        [("abort", "liftoff", .distance)]) := by decide

/-- The balanced takeoff can be flown: a solution that meets every request. -/
example : ∃ b s, balancedTakeoff.build = .ok b ∧ Feasible s b := by
  refine ⟨_, fun n e v => match v with
    | .vOverStall => 2
    | .altitude => if n = "liftoff" ∧ e then 35 else 0
    | .time | .distance =>
      (if n = "release" then 0 else if n = "decision" ∨ n = "brake" then 1
        else if n = "rotate" ∨ n = "abort" then 2 else 3) + (if e then 1 else 0) +
        (if n = "abort" ∧ e ∧ v = .distance then 1 else 0)
    | _ => 0, rfl, ⟨?_, ?_⟩, ?_⟩
  · intro l hl v hv
    simp only [List.mem_cons, List.cons_append, List.nil_append, List.not_mem_nil, or_false] at hl
    rcases hl with rfl | rfl | rfl | rfl | rfl <;>
      simp [basicVars, extVars] at hv <;> rcases hv with rfl | rfl | rfl | rfl | rfl <;>
      simp <;> norm_num
  · intro f hf
    simp only [List.mem_cons, List.not_mem_nil, or_false] at hf
    subst hf
    simp
    norm_num
  · intro p hp r hr
    have : p ∈ [("release", (⟨"release", .other⟩ : Builder)),
      ("decision", ⟨"decision", .speedToRotate⟩),
      ("rotate", ⟨"rotate", .other⟩), ("liftoff", ⟨"liftoff", .liftoffToObstacle 35 35 0⟩),
      ("brake", ⟨"brake", .brakeDelay⟩), ("abort", ⟨"abort", .other⟩)] := hp
    simp only [List.mem_cons, List.not_mem_nil, or_false] at this
    rcases this with rfl | rfl | rfl | rfl | rfl | rfl <;>
      simp [reqs, speedToRotateReqs] at hr <;>
      rcases hr with rfl | rfl | rfl | rfl | rfl | rfl | rfl <;>
      simp [MeetsReq] <;> norm_num

example : (names fullLanding.flown).Nodup := by decide

end Verif.LowSpeed
