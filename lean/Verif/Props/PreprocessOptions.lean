import Verif.Model.PreprocessOptions
import Mathlib.Tactic.Common

/-! # `preprocess_options` keeps user values, fills documented defaults and can be repeated -/

namespace Verif.Prep
variable {A : Type}

/-- A reference value whose first entry can be read. -/
def Readable : Option SA → Prop
  | some (.array []) => False
  | _ => True

/-- The first entry is zero. -/
def Zero : SA → Prop
  | .scalar q => q = 0
  | .array l => l.head? = some 0

theorem isZero_ok {r : SA} (h : Readable (some r)) : isZero r = .ok (decide (isZero r = .ok true)) := by
  rcases r with q | (_ | ⟨q, l⟩)
  · by_cases hq : q = 0 <;> simp [isZero, hq]
  · exact h.elim
  · by_cases hq : q = 0 <;> simp [isZero, hq]

theorem isZero_true {r : SA} : isZero r = .ok true ↔ Zero r := by
  rcases r with q | (_ | ⟨q, l⟩) <;> simp [isZero, Zero]

/-- `fillRef` in closed form. -/
theorem fillRef_spec (w : Warn) (v : ℤ) (ref act : Option SA) (h : Readable ref) :
    ∃ r ws, fillRef w v ref act = .ok (r, ws) ∧
      ((∃ x a, ref = some x ∧ Zero x ∧ act = some a ∧ r = some a ∧ ws = if 2 ≤ v then [w] else []) ∨
       ((∀ x a, ref = some x → Zero x → act ≠ some a) ∧ r = ref ∧ ws = [])) := by
  rcases ref with _ | x
  · exact ⟨none, [], rfl, .inr ⟨by simp, rfl, rfl⟩⟩
  · have h1 := isZero_ok h
    by_cases hz : isZero x = .ok true
    · rcases act with _ | a
      · exact ⟨some x, [], by simp [fillRef, hz], .inr ⟨by simp, rfl, rfl⟩⟩
      · exact ⟨some a, _, by simp [fillRef, hz], .inl ⟨x, a, rfl, isZero_true.1 hz, rfl, rfl, rfl⟩⟩
    · have h2 : isZero x = .ok false := by rw [h1]; simp [hz]
      refine ⟨some x, [], by simp [fillRef, h2], .inr ⟨?_, rfl, rfl⟩⟩
      intro y a hy hzy
      simp only [Option.some.injEq] at hy
      subst hy
      exact absurd (isZero_true.2 hzy) hz

theorem fillRef_error (w : Warn) (v : ℤ) (ref act : Option SA) (h : ¬ Readable ref) :
    fillRef w v ref act = .error .index := by
  rcases ref with _ | q | (_ | ⟨q, l⟩)
  · exact absurd trivial h
  · exact absurd trivial h
  · rfl
  · exact absurd trivial h

theorem fill_ok_iff (env : Env A) (v : ℤ) (o : Opts A) :
    (∃ r, fill env v o = .ok r) ↔ o.massMethod ≠ none ∧ Readable o.arRef ∧ Readable o.tcRef := by
  by_cases h1 : Readable o.arRef
  · obtain ⟨a, ws, ha, -⟩ := fillRef_spec .arRef v o.arRef o.ar h1
    by_cases h2 : Readable o.tcRef
    · obtain ⟨t, wt, ht, -⟩ := fillRef_spec .tcRef v o.tcRef o.tc h2
      rcases hm : o.massMethod with _ | m
      · simp only [fill, ha, ht, hm]
        simp
      · simp only [fill, ha, ht, hm]
        simp [h1, h2]
    · simp only [fill, ha, fillRef_error _ _ _ _ h2]
      simp [h2]
  · simp only [fill, fillRef_error _ _ _ _ h1]
    simp [h1]

/-- The function succeeds exactly when a mass method is given and no reference value is an empty array. -/
theorem run_ok_iff (env : Env A) (verb : Option ℤ) (o : Opts A) :
    (∃ r, run env verb o = .ok r) ↔ o.massMethod ≠ none ∧ Readable o.arRef ∧ Readable o.tcRef := by
  unfold run
  rw [fill_ok_iff]
  rcases verb with _ | v <;> rfl

/-- A missing mass method is reported, whatever else is given. -/
theorem run_noMass (env : Env A) (verb : Option ℤ) (o : Opts A) (hm : o.massMethod = none)
    (h1 : Readable o.arRef) (h2 : Readable o.tcRef) : run env verb o = .error .noMassMethod := by
  obtain ⟨a, ws, ha, -⟩ := fillRef_spec .arRef (level env verb o) o.arRef o.ar h1
  obtain ⟨t, wt, ht, -⟩ := fillRef_spec .tcRef (level env verb o) o.tcRef o.tc h2
  rcases verb with _ | v <;> simp only [run, fill, ha, ht, hm]

/-- The result when the function succeeds. -/
theorem run_eq {env : Env A} {verb : Option ℤ} {o o' : Opts A} {w : List Warn}
    (h : run env verb o = .ok (o', w)) :
    ∃ m r w1 t w2, o.massMethod = some m ∧
      fillRef .arRef (level env verb o) o.arRef o.ar = .ok (r, w1) ∧
      fillRef .tcRef (level env verb o) o.tcRef o.tc = .ok (t, w2) ∧
      o'.arRef = r ∧ o'.tcRef = t ∧ o'.ar = o.ar ∧ o'.tc = o.tc ∧
      o'.verbosity = (match verb with | some _ => o.verbosity | none => some (level env verb o)) ∧
      o'.excrescence = fillExcrescence o ∧ o'.aeroMethod = o.aeroMethod ∧ o'.massMethod = o.massMethod ∧
      o'.designType = o.designType ∧
      o'.simpleLayout = some (layout m (o.designType.getD .transport) o.simpleLayout) ∧
      (match seatDefaults m (o.designType.getD .transport)
          (layout m (o.designType.getD .transport) o.simpleLayout) with
        | none => o'.seatEconomy = o.seatEconomy ∧ o'.seatBusiness = o.seatBusiness ∧
            o'.seatFirst = o.seatFirst ∧
            w = w1 ++ w2 ++ (if o.designType = none ∧ 1 < level env verb o then [Warn.designType] else [])
        | some (e, b, f) => o'.seatEconomy = some (o.seatEconomy.getD e) ∧
            o'.seatBusiness = some (o.seatBusiness.getD b) ∧ o'.seatFirst = some (o.seatFirst.getD f) ∧
            w = w1 ++ w2 ++ (if o.designType = none ∧ 1 < level env verb o then [Warn.designType] else []) ++
              (if o.seatEconomy = none ∧ 1 ≤ level env verb o then [Warn.seatEconomy] else []) ++
              (if o.seatBusiness = none ∧ 1 ≤ level env verb o then [Warn.seatBusiness] else []) ++
              (if o.seatFirst = none ∧ 1 ≤ level env verb o then [Warn.seatFirst] else [])) ∧
      o'.atmosphere = some (o.atmosphere.getD env.atmosphere) ∧
      o'.gravity = some (o.gravity.getD (env.gravity (o.atmosphere.getD env.atmosphere))) ∧
      o'.density = some (o.density.getD (env.density (o.atmosphere.getD env.atmosphere))) := by
  obtain ⟨hm, h1, h2⟩ := (run_ok_iff env verb o).1 ⟨_, h⟩
  obtain ⟨m, hm⟩ := Option.ne_none_iff_exists'.1 hm
  obtain ⟨a, ws, ha, -⟩ := fillRef_spec .arRef (level env verb o) o.arRef o.ar h1
  obtain ⟨t, wt, ht, -⟩ := fillRef_spec .tcRef (level env verb o) o.tcRef o.tc h2
  refine ⟨m, a, ws, t, wt, hm, ha, ht, ?_⟩
  have key : ∀ s : Option ℚ, ∀ k d w0, fillSeat w0 k d s =
      (some (s.getD d), if s = none ∧ 1 ≤ k then [w0] else []) := by
    intro s k d w0; rcases s with _ | s <;> simp [fillSeat]
  rcases verb with _ | v
  · simp only [run, fill, ha, ht, hm, Except.ok.injEq, Prod.mk.injEq] at h
    obtain ⟨rfl, rfl⟩ := h
    refine ⟨rfl, rfl, rfl, rfl, rfl, rfl, rfl, hm.symm, rfl, rfl, ?_, rfl, rfl, rfl⟩
    rcases hs : seatDefaults m (o.designType.getD .transport)
      (layout m (o.designType.getD .transport) o.simpleLayout) with _ | ⟨e, b, f⟩
    · simp
    · simp [key]
  · simp only [run, fill, ha, ht, hm, Except.ok.injEq, Prod.mk.injEq] at h
    obtain ⟨rfl, rfl⟩ := h
    refine ⟨rfl, rfl, rfl, rfl, rfl, rfl, rfl, hm.symm, rfl, rfl, ?_, rfl, rfl, rfl⟩
    rcases hs : seatDefaults m (o.designType.getD .transport)
      (layout m (o.designType.getD .transport) o.simpleLayout) with _ | ⟨e, b, f⟩
    · simp
    · simp [key]

/-- A value the user gave stays as it is; a reference value may change only if its first entry is zero. -/
theorem run_keeps {env : Env A} {verb : Option ℤ} {o o' : Opts A} {w : List Warn}
    (h : run env verb o = .ok (o', w)) :
    o'.ar = o.ar ∧ o'.tc = o.tc ∧ o'.aeroMethod = o.aeroMethod ∧ o'.massMethod = o.massMethod ∧
    (∀ x, o.verbosity = some x → o'.verbosity = some x) ∧
    (∀ x, o.arRef = some x → ¬ Zero x → o'.arRef = some x) ∧
    (∀ x, o.tcRef = some x → ¬ Zero x → o'.tcRef = some x) ∧
    (∀ x, o.excrescence = some x → o'.excrescence = some x) ∧
    (∀ x, o.designType = some x → o'.designType = some x) ∧
    (∀ x, o.simpleLayout = some x → o'.simpleLayout = some x) ∧
    (∀ x, o.seatEconomy = some x → o'.seatEconomy = some x) ∧
    (∀ x, o.seatBusiness = some x → o'.seatBusiness = some x) ∧
    (∀ x, o.seatFirst = some x → o'.seatFirst = some x) ∧
    (∀ x, o.atmosphere = some x → o'.atmosphere = some x) ∧
    (∀ x, o.gravity = some x → o'.gravity = some x) ∧
    (∀ x, o.density = some x → o'.density = some x) := by
  obtain ⟨hm, h1, h2⟩ := (run_ok_iff env verb o).1 ⟨_, h⟩
  obtain ⟨m, r, w1, t, w2, hm, hr, ht, e1, e2, e3, e4, e5, e6, e7, e8, e9, e10, e11, e12, e13, e14⟩ := run_eq h
  refine ⟨e3, e4, e7, e8, ?_, ?_, ?_, ?_, ?_, ?_, ?_, ?_, ?_, ?_, ?_, ?_⟩
  · intro x hx; rcases verb with _ | v <;> simp [e5, hx, level]
  · intro x hx hz
    obtain ⟨r', ws, hr', hc⟩ := fillRef_spec .arRef (level env verb o) o.arRef o.ar h1
    rw [hr, Except.ok.injEq, Prod.mk.injEq] at hr'
    obtain ⟨rfl, rfl⟩ := hr'
    rcases hc with ⟨y, a, hy, hzy, -⟩ | ⟨-, hc, -⟩
    · rw [hx, Option.some.injEq] at hy; subst hy; exact absurd hzy hz
    · rw [e1, hc, hx]
  · intro x hx hz
    obtain ⟨r', ws, hr', hc⟩ := fillRef_spec .tcRef (level env verb o) o.tcRef o.tc h2
    rw [ht, Except.ok.injEq, Prod.mk.injEq] at hr'
    obtain ⟨rfl, rfl⟩ := hr'
    rcases hc with ⟨y, a, hy, hzy, -⟩ | ⟨-, hc, -⟩
    · rw [hx, Option.some.injEq] at hy; subst hy; exact absurd hzy hz
    · rw [e2, hc, hx]
  · intro x hx; simp [e6, fillExcrescence, hx]
  · intro x hx; rw [e9, hx]
  · intro x hx; simp [e10, layout, hx]
  all_goals intro x hx
  · split at e11 <;> simp [e11, hx]
  · split at e11 <;> simp [e11, hx]
  · split at e11 <;> simp [e11, hx]
  · simp [e12, hx]
  · simp [e13, hx]
  · simp [e14, hx]

/-- Values after a successful run: zero references replaced, documented defaults, gravity and density of the
atmosphere in use. -/
theorem run_defaults {env : Env A} {verb : Option ℤ} {o o' : Opts A} {w : List Warn}
    (h : run env verb o = .ok (o', w)) :
    (∀ x a, o.arRef = some x → Zero x → o.ar = some a → o'.arRef = some a) ∧
    (∀ x a, o.tcRef = some x → Zero x → o.tc = some a → o'.tcRef = some a) ∧
    (o.arRef = none → o'.arRef = none) ∧ (o.tcRef = none → o'.tcRef = none) ∧
    (o.excrescence = none → o.aeroMethod = some .flops → o'.excrescence = some (6 / 100)) ∧
    (o.excrescence = none → o.aeroMethod ≠ some .flops → o'.excrescence = none) ∧
    (o.simpleLayout = none → (o'.simpleLayout = some false ↔
      o.massMethod = some .gasp ∧ o.designType = some .bwb)) ∧
    o'.simpleLayout ≠ none ∧
    (o'.simpleLayout = some false → o.massMethod = some .flops → o.designType ≠ some .bwb →
      o'.seatEconomy = some (o.seatEconomy.getD 20) ∧ o'.seatBusiness = some (o.seatBusiness.getD 22) ∧
      o'.seatFirst = some (o.seatFirst.getD 25)) ∧
    (o'.simpleLayout = some false → o.massMethod = some .gasp → o.designType = some .bwb →
      o'.seatEconomy = some (o.seatEconomy.getD 20) ∧ o'.seatBusiness = some (o.seatBusiness.getD 22) ∧
      o'.seatFirst = some (o.seatFirst.getD 28)) ∧
    (o'.simpleLayout = some true → o'.seatEconomy = o.seatEconomy ∧ o'.seatBusiness = o.seatBusiness ∧
      o'.seatFirst = o.seatFirst) ∧
    (verb = none → o.verbosity = none → o'.verbosity = some env.verbosity) ∧
    (o.atmosphere = none → o'.atmosphere = some env.atmosphere) ∧
    (∀ a, o'.atmosphere = some a → o.gravity = none → o'.gravity = some (env.gravity a)) ∧
    (∀ a, o'.atmosphere = some a → o.density = none → o'.density = some (env.density a)) := by
  obtain ⟨hm, h1, h2⟩ := (run_ok_iff env verb o).1 ⟨_, h⟩
  obtain ⟨m, r, w1, t, w2, hm, hr, ht, e1, e2, e3, e4, e5, e6, e7, e8, e9, e10, e11, e12, e13, e14⟩ := run_eq h
  obtain ⟨r', ws, hr', hc⟩ := fillRef_spec .arRef (level env verb o) o.arRef o.ar h1
  rw [hr, Except.ok.injEq, Prod.mk.injEq] at hr'
  obtain ⟨rfl, rfl⟩ := hr'
  obtain ⟨t', wt, ht', hd⟩ := fillRef_spec .tcRef (level env verb o) o.tcRef o.tc h2
  rw [ht, Except.ok.injEq, Prod.mk.injEq] at ht'
  obtain ⟨rfl, rfl⟩ := ht'
  refine ⟨?_, ?_, ?_, ?_, ?_, ?_, ?_, ?_, ?_, ?_, ?_, ?_, ?_, ?_, ?_⟩
  · intro x a hx hz ha
    rcases hc with ⟨y, b, -, -, hb, hc, -⟩ | ⟨hc, -⟩
    · rw [e1, hc, ← hb, ha]
    · exact absurd ha (hc x a hx hz)
  · intro x a hx hz ha
    rcases hd with ⟨y, b, -, -, hb, hc, -⟩ | ⟨hc, -⟩
    · rw [e2, hc, ← hb, ha]
    · exact absurd ha (hc x a hx hz)
  · intro hn
    rcases hc with ⟨y, b, hy, -⟩ | ⟨-, hc, -⟩
    · rw [hn] at hy; cases hy
    · rw [e1, hc, hn]
  · intro hn
    rcases hd with ⟨y, b, hy, -⟩ | ⟨-, hc, -⟩
    · rw [hn] at hy; cases hy
    · rw [e2, hc, hn]
  · intro a b; simp [e6, fillExcrescence, a, b]
  · intro a b; simp [e6, fillExcrescence, a, b]
  · intro hs
    rcases m with _ | _ <;> rcases hd : o.designType with _ | _ | _ <;>
      simp [e10, layout, hs, hm, hd]
  · simp [e10]
  · intro hs hm' hd'
    rw [hm, Option.some.injEq] at hm'
    subst hm'
    rw [e10, Option.some.injEq] at hs
    rcases hd : o.designType with _ | _ | _ <;> simp_all [seatDefaults]
  · intro hs hm' hd'
    rw [hm, Option.some.injEq] at hm'
    subst hm'
    rw [e10, Option.some.injEq] at hs
    simp_all [seatDefaults]
  · intro hs
    rw [e10, Option.some.injEq] at hs
    simp_all [seatDefaults]
  · intro a b; subst a; simp [e5, level, b]
  · intro a; simp [e12, a]
  · intro a ha hg
    rw [e12, Option.some.injEq] at ha
    simp [e13, hg, ha]
  · intro a ha hg
    rw [e12, Option.some.injEq] at ha
    simp [e14, hg, ha]

theorem fillRef_again (w : Warn) (v : ℤ) {ref act r : Option SA} {ws : List Warn} (hr : Readable act)
    (h : fillRef w v ref act = .ok (r, ws)) : ∃ ws', fillRef w v r act = .ok (r, ws') := by
  by_cases h1 : Readable ref
  · obtain ⟨r', ws1, hr', hc⟩ := fillRef_spec w v ref act h1
    rw [h, Except.ok.injEq, Prod.mk.injEq] at hr'
    obtain ⟨rfl, rfl⟩ := hr'
    rcases hc with ⟨x, a, -, -, ha, rfl, -⟩ | ⟨-, rfl, -⟩
    · subst ha
      obtain ⟨r2, ws2, h2, hc2⟩ := fillRef_spec w v (some a) (some a) hr
      refine ⟨ws2, ?_⟩
      rcases hc2 with ⟨-, b, -, -, hb, rfl, -⟩ | ⟨-, rfl, -⟩
      · rw [h2, hb]
      · exact h2
    · exact ⟨_, h⟩
  · rw [fillRef_error _ _ _ _ h1] at h; cases h

/-- Running the function again on its own result changes nothing. -/
theorem run_again {env : Env A} {verb : Option ℤ} {o o' : Opts A} {w : List Warn}
    (ha : Readable o.ar) (ht : Readable o.tc) (h : run env verb o = .ok (o', w)) :
    ∃ w', run env verb o' = .ok (o', w') := by
  obtain ⟨m, r, w1, t, w2, hm, hr, ht', e1, e2, e3, e4, e5, e6, e7, e8, e9, e10, e11, e12, e13, e14⟩ := run_eq h
  obtain ⟨ws1, hr1⟩ := fillRef_again _ _ ha hr
  obtain ⟨ws2, hr2⟩ := fillRef_again _ _ ht ht'
  have hread : ∀ (w : Warn) (v : ℤ) (x a y : Option SA) ws, fillRef w v x a = .ok (y, ws) → Readable x := by
    intro w v x a y ws hh
    by_contra hn
    rw [fillRef_error _ _ _ _ hn] at hh; cases hh
  have ok := (run_ok_iff env verb o').2 ⟨by rw [e8, hm]; simp, by
    rw [e1]; exact hread _ _ _ _ _ _ hr1, by rw [e2]; exact hread _ _ _ _ _ _ hr2⟩
  obtain ⟨⟨p, wp⟩, hp⟩ := ok
  have hl : level env verb o' = level env verb o := by
    rcases verb with _ | v
    · simp [level, e5]
    · rfl
  obtain ⟨m', r', w1', t', w2', hm', hr', ht'', f1, f2, f3, f4, f5, f6, f7, f8, f9, f10, f11, f12, f13, f14⟩ :=
    run_eq hp
  rw [e8, hm, Option.some.injEq] at hm'
  subst hm'
  rw [hl, e1, e3, hr1, Except.ok.injEq, Prod.mk.injEq] at hr'
  rw [hl, e2, e4, hr2, Except.ok.injEq, Prod.mk.injEq] at ht''
  have hlay : layout m (o'.designType.getD .transport) o'.simpleLayout =
      layout m (o.designType.getD .transport) o.simpleLayout := by rw [e10]; rfl
  rw [hlay, e9] at f11
  rw [hlay] at f10
  refine ⟨wp, ?_⟩
  rw [hp]
  have : p = o' := by
    have g1 : p.arRef = o'.arRef := by rw [f1, ← hr'.1, e1]
    have g2 : p.tcRef = o'.tcRef := by rw [f2, ← ht''.1, e2]
    have g5 : p.verbosity = o'.verbosity := by
      rw [f5]; rcases verb with _ | v
      · simp only [hl]; rw [e5]
      · rfl
    have g6 : p.excrescence = o'.excrescence := by
      rw [f6]; simp only [fillExcrescence, e7]
      rw [e6]; simp only [fillExcrescence]
      rcases o.excrescence with _ | x
      · by_cases hf : o.aeroMethod = some .flops <;> simp [hf]
      · rfl
    have g10 : p.simpleLayout = o'.simpleLayout := by rw [f10, e10]
    have gs : p.seatEconomy = o'.seatEconomy ∧ p.seatBusiness = o'.seatBusiness ∧
        p.seatFirst = o'.seatFirst := by
      split at f11
      · exact ⟨f11.1, f11.2.1, f11.2.2.1⟩
      · rename_i hs
        simp only [hs] at e11
        obtain ⟨a, b, c, -⟩ := e11
        obtain ⟨a', b', c', -⟩ := f11
        rw [a', b', c', a, b, c]
        exact ⟨rfl, rfl, rfl⟩
    have g12 : p.atmosphere = o'.atmosphere := by rw [f12, e12]; rfl
    have g13 : p.gravity = o'.gravity := by rw [f13, e13]; rfl
    have g14 : p.density = o'.density := by rw [f14, e14]; rfl
    cases p; cases o'
    simp only at g1 g2 f3 f4 g5 g6 f7 f8 f9 g10 gs g12 g13 g14
    obtain ⟨s1, s2, s3⟩ := gs
    subst_vars
    rfl
  rw [this]

/-- With verbosity zero nothing is announced; from BRIEF on every replaced seat width is. -/
theorem run_warnings {env : Env A} {verb : Option ℤ} {o o' : Opts A} {w : List Warn}
    (h : run env verb o = .ok (o', w)) :
    (level env verb o ≤ 0 → w = []) ∧
    (1 ≤ level env verb o → (Warn.seatEconomy ∈ w ↔ o.seatEconomy = none ∧ o'.seatEconomy ≠ none) ∧
      (Warn.seatBusiness ∈ w ↔ o.seatBusiness = none ∧ o'.seatBusiness ≠ none) ∧
      (Warn.seatFirst ∈ w ↔ o.seatFirst = none ∧ o'.seatFirst ≠ none)) := by
  obtain ⟨hm, h1, h2⟩ := (run_ok_iff env verb o).1 ⟨_, h⟩
  obtain ⟨m, r, w1, t, w2, hm, hr, ht, e1, e2, e3, e4, e5, e6, e7, e8, e9, e10, e11, e12, e13, e14⟩ := run_eq h
  obtain ⟨r', ws, hr', hc⟩ := fillRef_spec .arRef (level env verb o) o.arRef o.ar h1
  rw [hr, Except.ok.injEq, Prod.mk.injEq] at hr'
  obtain ⟨rfl, rfl⟩ := hr'
  obtain ⟨t', wt, ht', hd⟩ := fillRef_spec .tcRef (level env verb o) o.tcRef o.tc h2
  rw [ht, Except.ok.injEq, Prod.mk.injEq] at ht'
  obtain ⟨rfl, rfl⟩ := ht'
  have k1 : w1 = [] ∨ (2 ≤ level env verb o ∧ w1 = [Warn.arRef]) := by
    rcases hc with ⟨-, -, -, -, -, -, hc⟩ | ⟨-, -, hc⟩
    · by_cases hv : 2 ≤ level env verb o <;> simp [hc, hv]
    · exact .inl hc
  have k2 : w2 = [] ∨ (2 ≤ level env verb o ∧ w2 = [Warn.tcRef]) := by
    rcases hd with ⟨-, -, -, -, -, -, hc⟩ | ⟨-, -, hc⟩
    · by_cases hv : 2 ≤ level env verb o <;> simp [hc, hv]
    · exact .inl hc
  have n1 : ∀ x, x ∈ w1 → x = Warn.arRef := by rcases k1 with k | ⟨-, k⟩ <;> simp [k]
  have n2 : ∀ x, x ∈ w2 → x = Warn.tcRef := by rcases k2 with k | ⟨-, k⟩ <;> simp [k]
  have m1 : ∀ x, x ≠ Warn.arRef → x ∉ w1 := fun x hx hw => hx (n1 x hw)
  have m2 : ∀ x, x ≠ Warn.tcRef → x ∉ w2 := fun x hx hw => hx (n2 x hw)
  constructor
  · intro hv
    have a1 : w1 = [] := by rcases k1 with k | ⟨k, -⟩; exacts [k, absurd k (by omega)]
    have a2 : w2 = [] := by rcases k2 with k | ⟨k, -⟩; exacts [k, absurd k (by omega)]
    have v1 : ¬ 1 < level env verb o := by omega
    have v2 : ¬ 1 ≤ level env verb o := by omega
    split at e11
    · simp [e11.2.2.2, a1, a2, v1]
    · simp [e11.2.2.2, a1, a2, v1, v2]
  · intro hv
    split at e11
    · obtain ⟨s1, s2, s3, rfl⟩ := e11
      rw [s1, s2, s3]
      by_cases hd : o.designType = none ∧ 1 < level env verb o <;> simp [hd, m1, m2]
    · obtain ⟨s1, s2, s3, rfl⟩ := e11
      rw [s1, s2, s3]
      by_cases hd : o.designType = none ∧ 1 < level env verb o <;>
        by_cases p1 : o.seatEconomy = none <;> by_cases p2 : o.seatBusiness = none <;>
        by_cases p3 : o.seatFirst = none <;> simp [hd, m1, m2, hv, p1, p2, p3]

/-- Two atmospheres with the shipped constants (aviary/constants.py:5-16). -/
def env0 : Env Bool := ⟨1, false, fun b => (if b then 3712 / 1000 else 980665 / 100000, "m/s**2"),
  fun b => (if b then 1 / 100 else 1225 / 1000, "kg/m**3")⟩

/-- A blended wing body with GASP mass method, zero reference aspect ratio and one seat width. -/
def opts0 : Opts Bool := ⟨none, some (.scalar 0), some (.scalar 11), none, none, none, some .flops, some .gasp,
  some .bwb, none, none, some 23, none, none, none, none⟩

example : run env0 none opts0 = .ok (⟨some 1, some (.scalar 11), some (.scalar 11), none, none, some (6 / 100),
    some .flops, some .gasp, some .bwb, some false, some 20, some 23, some 28, some false,
    some (980665 / 100000, "m/s**2"), some (1225 / 1000, "kg/m**3")⟩, [.seatEconomy, .seatFirst]) := by
  decide +kernel

example : Readable opts0.ar ∧ Readable opts0.tc ∧ opts0.massMethod ≠ none :=
  ⟨trivial, trivial, by decide +kernel⟩

/-- The warning says that the aircraft type is set to TRANSPORT, but the option stays unset. -/
theorem designType_recorded_violated : ∃ (o o' : Opts Bool) (w : List Warn),
    run env0 (some 2) o = .ok (o', w) ∧ Warn.designType ∈ w ∧ o'.designType = none :=
  ⟨{ opts0 with designType := none }, _, _, rfl, by decide +kernel, rfl⟩

/-- After a first run, choosing another planet and running again keeps the old gravity. -/
theorem gravity_follows_atmosphere_violated : ∃ (o o' : Opts Bool) (w : List Warn),
    run env0 none opts0 = .ok (o, w) ∧ run env0 none { o with atmosphere := some true } = .ok (o', []) ∧
    o'.gravity ≠ some (env0.gravity true) :=
  ⟨_, { (⟨some 1, some (.scalar 11), some (.scalar 11), none, none, some (6 / 100),
    some .flops, some .gasp, some .bwb, some false, some 20, some 23, some 28, some true,
    some (980665 / 100000, "m/s**2"), some (1225 / 1000, "kg/m**3")⟩ : Opts Bool) with }, _, rfl,
    by decide +kernel, by decide +kernel⟩

end Verif.Prep
