import Verif.Model.EngineDeck
import Verif.Lemmas.Dict
import Verif.Props.EngineDeckPack
import Mathlib.Tactic.FieldSimp
import Mathlib.Tactic.Ring
import Mathlib.Order.Monotone.Basic

/-! # C18, C19, C20, C35, C36: throttle normalisation, reference thrust and data checks of engine decks -/

namespace Verif

/-! ## C18 -/

theorem foldl_max_spec (xs : List ℚ) : ∀ x, (xs.foldl max x ∈ x :: xs) ∧ ∀ y ∈ x :: xs, y ≤ xs.foldl max x := by
  induction xs with
  | nil => intro x; simp
  | cons a xs ih =>
    intro x
    simp only [List.foldl_cons]
    obtain ⟨h1, h2⟩ := ih (max x a)
    refine ⟨?_, ?_⟩
    · rcases List.mem_cons.1 h1 with h | h
      · rw [h]
        rcases max_choice x a with e | e <;> rw [e] <;> simp
      · simp [h]
    · intro y hy
      have h3 := h2 (max x a) (by simp)
      rcases List.mem_cons.1 hy with h | h
      · rw [h]; exact le_trans (le_max_left _ _) h3
      · rcases List.mem_cons.1 h with h | h
        · rw [h]; exact le_trans (le_max_right _ _) h3
        · exact h2 y (by simp [h])

theorem foldl_min_spec (xs : List ℚ) : ∀ x, (xs.foldl min x ∈ x :: xs) ∧ ∀ y ∈ x :: xs, xs.foldl min x ≤ y := by
  induction xs with
  | nil => intro x; simp
  | cons a xs ih =>
    intro x
    simp only [List.foldl_cons]
    obtain ⟨h1, h2⟩ := ih (min x a)
    refine ⟨?_, ?_⟩
    · rcases List.mem_cons.1 h1 with h | h
      · rw [h]
        rcases min_choice x a with e | e <;> rw [e] <;> simp
      · simp [h]
    · intro y hy
      have h3 := h2 (min x a) (by simp)
      rcases List.mem_cons.1 hy with h | h
      · rw [h]; exact le_trans h3 (min_le_left _ _)
      · rcases List.mem_cons.1 h with h | h
        · rw [h]; exact le_trans h3 (min_le_right _ _)
        · exact h2 y (by simp [h])

theorem pyMax_spec (xs : List ℚ) (h : xs ≠ []) : ∃ m, pyMax xs = .ok m ∧ m ∈ xs ∧ ∀ x ∈ xs, x ≤ m := by
  cases xs with
  | nil => exact absurd rfl h
  | cons x xs => exact ⟨_, rfl, (foldl_max_spec xs x).1, (foldl_max_spec xs x).2⟩

theorem pyMin_spec (xs : List ℚ) (h : xs ≠ []) : ∃ m, pyMin xs = .ok m ∧ m ∈ xs ∧ ∀ x ∈ xs, m ≤ x := by
  cases xs with
  | nil => exact absurd rfl h
  | cons x xs => exact ⟨_, rfl, (foldl_min_spec xs x).1, (foldl_min_spec xs x).2⟩

theorem pyMax_unique {xs : List ℚ} {m : ℚ} (h1 : m ∈ xs) (h2 : ∀ x ∈ xs, x ≤ m) : pyMax xs = .ok m := by
  obtain ⟨m', e, a, b⟩ := pyMax_spec xs (List.ne_nil_of_mem h1)
  rw [e, le_antisymm (h2 _ a) (b _ h1)]

theorem pyMin_unique {xs : List ℚ} {m : ℚ} (h1 : m ∈ xs) (h2 : ∀ x ∈ xs, m ≤ x) : pyMin xs = .ok m := by
  obtain ⟨m', e, a, b⟩ := pyMin_spec xs (List.ne_nil_of_mem h1)
  rw [e, le_antisymm (b _ h1) (h2 _ a)]

theorem normalize_eq {xs : List ℚ} {mx mn : ℚ} (hx : pyMax xs = .ok mx) (hn : pyMin xs = .ok mn) (hne : xs ≠ [])
    (hd : mx - mn ≠ 0) : normalize xs = .ok (xs.map (fun x => (x - mn) / (mx - mn))) := by
  simp only [normalize, hx, hn, bind, Except.bind]
  rw [if_neg hne, if_neg hd]

/-- **C18 (throttle).** Every column with at least two different values is normalised by one strictly increasing map
to values in [0, 1]; the largest value becomes 1 and the smallest 0. -/
theorem normalize_spec (xs : List ℚ) (a b : ℚ) (ha : a ∈ xs) (hb : b ∈ xs) (hab : a ≠ b) :
    ∃ f : ℚ → ℚ, normalize xs = .ok (xs.map f) ∧ StrictMono f ∧ (∀ x ∈ xs, 0 ≤ f x ∧ f x ≤ 1) ∧
      (∀ x ∈ xs, (∀ y ∈ xs, y ≤ x) → f x = 1) ∧ (∀ x ∈ xs, (∀ y ∈ xs, x ≤ y) → f x = 0) := by
  have hne := List.ne_nil_of_mem ha
  obtain ⟨mx, e1, m1, u1⟩ := pyMax_spec xs hne
  obtain ⟨mn, e2, m2, u2⟩ := pyMin_spec xs hne
  have hlt : 0 < mx - mn := by
    rcases lt_or_gt_of_ne hab with h | h
    · have := u2 a ha; have := u1 b hb; linarith
    · have := u2 b hb; have := u1 a ha; linarith
  refine ⟨fun x => (x - mn) / (mx - mn), normalize_eq e1 e2 hne hlt.ne', ?_, ?_, ?_, ?_⟩
  · intro x y h
    exact div_lt_div_of_pos_right (by linarith) hlt
  · intro x hx
    have := u1 x hx; have := u2 x hx
    exact ⟨div_nonneg (by linarith) hlt.le, (div_le_one hlt).2 (by linarith)⟩
  · intro x hx h
    have : x = mx := le_antisymm (u1 x hx) (h mx m1)
    simp only [this]
    exact div_self hlt.ne'
  · intro x hx h
    have : x = mn := le_antisymm (h mn m2) (u2 x hx)
    simp only [this, sub_self, zero_div]

/-- **C18 (limits and idempotence).** In the global mode the stored limits are 0 and 1, and normalising the result
again changes nothing. -/
theorem globalThrottle_spec (xs : List ℚ) (a b : ℚ) (ha : a ∈ xs) (hb : b ∈ xs) (hab : a ≠ b) :
    ∃ ys, globalThrottle xs = .ok ⟨ys, 0, 1⟩ ∧ ys.length = xs.length ∧ globalThrottle ys = .ok ⟨ys, 0, 1⟩ := by
  obtain ⟨f, e, hmono, hr, h1, h0⟩ := normalize_spec xs a b ha hb hab
  have hne := List.ne_nil_of_mem ha
  obtain ⟨mx, _, m1, u1⟩ := pyMax_spec xs hne
  obtain ⟨mn, _, m2, u2⟩ := pyMin_spec xs hne
  have i1 : (1 : ℚ) ∈ xs.map f := List.mem_map.2 ⟨mx, m1, h1 mx m1 u1⟩
  have i0 : (0 : ℚ) ∈ xs.map f := List.mem_map.2 ⟨mn, m2, h0 mn m2 u2⟩
  have b1 : ∀ y ∈ xs.map f, y ≤ 1 := by
    intro y hy; obtain ⟨x, hx, rfl⟩ := List.mem_map.1 hy; exact (hr x hx).2
  have b0 : ∀ y ∈ xs.map f, 0 ≤ y := by
    intro y hy; obtain ⟨x, hx, rfl⟩ := List.mem_map.1 hy; exact (hr x hx).1
  have e2 : normalize (xs.map f) = .ok (xs.map f) := by
    rw [normalize_eq (pyMax_unique i1 b1) (pyMin_unique i0 b0) (List.ne_nil_of_mem i1) (by norm_num)]
    simp
  refine ⟨xs.map f, ?_, by simp, ?_⟩
  · simp only [globalThrottle, e, bind, Except.bind, pyMin_unique i0 b0, pyMax_unique i1 b1]
  · simp only [globalThrottle, e2, bind, Except.bind, pyMin_unique i0 b0, pyMax_unique i1 b1]

example : (20 : ℚ) ∈ ([20, 50, 35] : List ℚ) ∧ globalThrottle [20, 50, 35] = .ok ⟨[0, 1, 1/2], 0, 1⟩ := by
  decide +kernel

/-- **C18 (negation).** A column with one repeated value (for example a flight condition with one throttle setting in
the local mode) is divided by zero. -/
theorem normalize_const_violated (x : ℚ) (n : ℕ) : normalize (List.replicate (n + 1) x) = .error .zeroDivision := by
  have h1 : x ∈ List.replicate (n + 1) x := by simp
  have h2 : ∀ y ∈ List.replicate (n + 1) x, y = x := fun y hy => List.eq_of_mem_replicate hy
  have e1 := pyMax_unique h1 (fun y hy => (h2 y hy).le)
  have e2 := pyMin_unique h1 (fun y hy => (h2 y hy).ge)
  simp only [normalize, e1, e2, bind, Except.bind]
  rw [if_neg (by simp), if_pos (by simp)]

theorem scatter_map (c : ℚ → Bool) (g : ℚ → ℚ) (xs : List ℚ) :
    scatter c xs ((xs.filter c).map g) = xs.map (fun x => if c x then g x else x) := by
  induction xs with
  | nil => rfl
  | cons x xs ih =>
    by_cases h : c x = true
    · simp only [List.filter_cons, h, if_true, List.map_cons, scatter, ih]
    · have h' : c x = false := by simpa using h
      simp only [List.filter_cons, h', List.map_cons]
      cases hf : (xs.filter c).map g with
      | nil =>
        rw [hf] at ih
        simp only [Bool.false_eq_true, if_false, hf, scatter]
        cases xs with
        | nil => rfl
        | cons y ys => simp only [scatter] at ih; rw [← ih]
      | cons v vs =>
        rw [hf] at ih
        simp only [Bool.false_eq_true, if_false, hf, scatter, h', ih]

/-- **C18 (hybrid throttle).** For every column the hybrid throttle is normalised by one strictly increasing map that
keeps zero: all values lie in [-1, 1], the most negative value (if any is negative) becomes -1 and the largest
positive value (if any) becomes 1. -/
theorem hybridNorm_spec (xs : List ℚ) :
    ∃ f : ℚ → ℚ, hybridNorm xs = .ok (xs.map f) ∧ StrictMono f ∧ f 0 = 0 ∧ (∀ x ∈ xs, -1 ≤ f x ∧ f x ≤ 1) ∧
      (∀ x ∈ xs, x < 0 → (∀ y ∈ xs, x ≤ y) → f x = -1) ∧ (∀ x ∈ xs, 0 < x → (∀ y ∈ xs, y ≤ x) → f x = 1) := by
  -- the two slopes
  have hm : ∃ m : ℚ, m < 0 ∧ (∀ x ∈ xs, x < 0 → m ≤ x) ∧ ((∃ x ∈ xs, x < 0) → m ∈ xs) ∧
      (∀ x ∈ xs, x < 0 → pyMin (xs.filter (fun x => decide (x < 0))) = .ok m) := by
    by_cases h : ∃ x ∈ xs, x < 0
    · obtain ⟨x, hx, hx0⟩ := h
      have hmem : x ∈ xs.filter (fun x => decide (x < 0)) := by simp [hx, hx0]
      obtain ⟨m, e, a, b⟩ := pyMin_spec _ (List.ne_nil_of_mem hmem)
      have ha := List.mem_filter.1 a
      refine ⟨m, by simpa using ha.2, ?_, fun _ => ha.1, fun _ _ _ => e⟩
      intro y hy hy0
      exact b y (by simp [hy, hy0])
    · exact ⟨-1, by norm_num, fun x hx h0 => absurd ⟨x, hx, h0⟩ h, fun h' => absurd h' h,
        fun x hx h0 => absurd ⟨x, hx, h0⟩ h⟩
  have hM : ∃ m : ℚ, 0 < m ∧ (∀ x ∈ xs, 0 < x → x ≤ m) ∧ ((∃ x ∈ xs, 0 < x) → m ∈ xs) := by
    by_cases h : ∃ x ∈ xs, 0 < x
    · obtain ⟨x, hx, hx0⟩ := h
      have hmem : x ∈ xs.filter (fun x => decide (0 < x)) := by simp [hx, hx0]
      obtain ⟨m, e, a, b⟩ := pyMax_spec _ (List.ne_nil_of_mem hmem)
      have ha := List.mem_filter.1 a
      refine ⟨m, by simpa using ha.2, ?_, fun _ => ha.1⟩
      intro y hy hy0
      exact b y (by simp [hy, hy0])
    · exact ⟨1, by norm_num, fun x hx h0 => absurd ⟨x, hx, h0⟩ h, fun h' => absurd h' h⟩
  obtain ⟨m, hm0, hml, hmm, hme⟩ := hm
  obtain ⟨M, hM0, hMu, hMm⟩ := hM
  have hnm : 0 < -m := by linarith
  let f : ℚ → ℚ := fun x => if x < 0 then x / (-m) else x / M
  have fneg : ∀ x, x < 0 → f x = x / (-m) := fun x h => if_pos h
  have fpos : ∀ x, 0 ≤ x → f x = x / M := fun x h => if_neg (by linarith)
  have fneg0 : ∀ x, x < 0 → f x < 0 := fun x h => by rw [fneg x h]; exact div_neg_of_neg_of_pos h hnm
  have fpos0 : ∀ x, 0 ≤ x → 0 ≤ f x := fun x h => by rw [fpos x h]; exact div_nonneg h hM0.le
  -- step 1: negative values
  have hm' : m ≠ 0 := hm0.ne
  have h1 : ∃ xs1, hybridNeg xs = .ok xs1 ∧ xs1 = xs.map (fun x => if x < 0 then x / (-m) else x) := by
    unfold hybridNeg
    simp only
    by_cases h : xs.filter (fun x => decide (x < 0)) = []
    · rw [if_pos h]
      refine ⟨xs, rfl, ?_⟩
      have : ∀ x ∈ xs, ¬ x < 0 := by simpa [List.filter_eq_nil_iff] using h
      conv_lhs => rw [← List.map_id xs]
      apply List.map_congr_left
      intro x hx
      rw [if_neg (this x hx)]; rfl
    · rw [if_neg h]
      obtain ⟨x, hx⟩ := List.exists_mem_of_ne_nil _ h
      have hx' := List.mem_filter.1 hx
      have e := hme x hx'.1 (by simpa using hx'.2)
      have hd : (0 : ℚ) - m ≠ 0 := by linarith
      have en : normalize (xs.filter (fun x => decide (x < 0))) (maximum := some 0) =
          .ok ((xs.filter (fun x => decide (x < 0))).map (fun x => (x - m) / (0 - m))) := by
        simp only [normalize, e, bind, Except.bind]
        rw [if_neg h, if_neg hd]
      rw [en]
      refine ⟨_, rfl, ?_⟩
      simp only [List.map_map]
      rw [scatter_map]
      apply List.map_congr_left
      intro y hy
      by_cases hy0 : y < 0
      · simp only [hy0, decide_true, if_true, Function.comp]
        rw [zero_sub]
        field_simp
        ring
      · simp [hy0]
  obtain ⟨xs1, e1, rfl⟩ := h1
  -- step 2: positive values
  set xs1 := xs.map (fun x => if x < 0 then x / (-m) else x) with hxs1
  have hp : xs1.filter (fun x => decide (x > 0)) = xs.filter (fun x => decide (x > 0)) := by
    have aux : ∀ l : List ℚ, (l.map (fun x => if x < 0 then x / (-m) else x)).filter (fun x => decide (x > 0)) =
        l.filter (fun x => decide (x > 0)) := by
      intro l
      induction l with
      | nil => rfl
      | cons a l ih =>
        simp only [List.map_cons, List.filter_cons, ih]
        by_cases ha : a < 0
        · have : ¬ (a / (-m) > 0) := not_lt.2 (div_neg_of_neg_of_pos ha hnm).le
          have h2 : ¬ (a > 0) := not_lt.2 ha.le
          simp only [ha, if_true, this, h2, decide_false]
          simp
        · simp only [ha, if_false]
    exact aux xs
  have h2 : hybridNorm xs = .ok (xs.map f) := by
    have : hybridNorm xs = hybridPos xs1 := by
      unfold hybridNorm
      rw [e1]
      rfl
    rw [this]
    unfold hybridPos
    simp only
    by_cases h : xs1.filter (fun x => decide (x > 0)) = []
    · rw [if_pos h]
      congr 1
      apply List.map_congr_left
      intro x hx
      by_cases hx0 : x < 0
      · rw [if_pos hx0, fneg x hx0]
      · rw [if_neg hx0, fpos x (not_lt.1 hx0)]
        rw [hp, List.filter_eq_nil_iff] at h
        have := h x hx
        simp only [gt_iff_lt, decide_eq_true_eq, not_lt] at this
        have : x = 0 := le_antisymm this (not_lt.1 hx0)
        rw [this]; simp
    · rw [if_neg h]
      obtain ⟨x, hx⟩ := List.exists_mem_of_ne_nil _ h
      rw [hp] at hx
      have hx' := List.mem_filter.1 hx
      have hMmem := hMm ⟨x, hx'.1, by simpa using hx'.2⟩
      have eM : pyMax (xs1.filter (fun x => decide (x > 0))) = .ok M := by
        rw [hp]
        apply pyMax_unique
        · simp [hMmem, hM0]
        · intro y hy
          have := List.mem_filter.1 hy
          exact hMu y this.1 (by simpa using this.2)
      have en : normalize (xs1.filter (fun x => decide (x > 0))) (minimum := some 0) =
          .ok ((xs1.filter (fun x => decide (x > 0))).map (fun x => (x - 0) / (M - 0))) := by
        simp only [normalize, eM, bind, Except.bind]
        rw [if_neg h, if_neg (by linarith)]
      rw [en]
      simp only [bind, Except.bind]
      rw [scatter_map, hxs1, List.map_map]
      congr 1
      apply List.map_congr_left
      intro y hy
      by_cases hy0 : y < 0
      · have : ¬ (y / (-m) > 0) := not_lt.2 (div_neg_of_neg_of_pos hy0 hnm).le
        have ez : (fun x => if x < 0 then x / (-m) else x) y = y / (-m) := if_pos hy0
        refine (congrArg (fun x => if decide (x > 0) = true then (x - 0) / (M - 0) else x) ez).trans ?_
        rw [fneg y hy0]
        simp only [this, decide_false]
        simp
      · have ez : (fun x => if x < 0 then x / (-m) else x) y = y := if_neg hy0
        refine (congrArg (fun x => if decide (x > 0) = true then (x - 0) / (M - 0) else x) ez).trans ?_
        rw [fpos y (not_lt.1 hy0)]
        by_cases hy1 : y > 0
        · simp [hy1]
        · have : y = 0 := le_antisymm (not_lt.1 hy1) (not_lt.1 hy0)
          simp [this]
  refine ⟨f, h2, ?_, ?_, ?_, ?_, ?_⟩
  · intro x y hxy
    by_cases hy : y < 0
    · rw [fneg x (by linarith), fneg y hy]
      exact div_lt_div_of_pos_right hxy hnm
    · have hy' := not_lt.1 hy
      by_cases hx : x < 0
      · exact lt_of_lt_of_le (fneg0 x hx) (fpos0 y hy')
      · rw [fpos x (not_lt.1 hx), fpos y hy']
        exact div_lt_div_of_pos_right hxy hM0
  · rw [fpos 0 le_rfl]; simp
  · intro x hx
    by_cases hx0 : x < 0
    · have := hml x hx hx0
      refine ⟨?_, (fneg0 x hx0).le.trans (by norm_num)⟩
      rw [fneg x hx0, le_div_iff₀ hnm]; linarith
    · have hx0' := not_lt.1 hx0
      refine ⟨le_trans (by norm_num) (fpos0 x hx0'), ?_⟩
      rw [fpos x hx0', div_le_one hM0]
      rcases hx0'.lt_or_eq with h | h
      · exact hMu x hx h
      · linarith
  · intro x hx hx0 h
    have : x = m := le_antisymm (h m (hmm ⟨x, hx, hx0⟩)) (hml x hx hx0)
    rw [fneg x hx0, this]
    field_simp
  · intro x hx hx0 h
    have : x = M := le_antisymm (hMu x hx hx0) (h M (hMm ⟨x, hx, hx0⟩))
    rw [fpos x hx0.le, this]
    exact div_self hM0.ne'

/-- **C18 (negation).** In the global mode the hybrid throttle limits are those of the data before normalisation. -/
theorem globalHybrid_limits_violated :
    globalHybrid [-2, 0, 5] = .ok ⟨[-1, 0, 1], -2, 5⟩ := by decide +kernel

/-- **C18 (negation, exactly).** The stored limits are always the raw limits. -/
theorem globalHybrid_limits_raw (xs : List ℚ) (out : ThrottleOut) (h : globalHybrid xs = .ok out) :
    (∀ x ∈ xs, out.lo ≤ x ∧ x ≤ out.hi) ∧ out.lo ∈ xs ∧ out.hi ∈ xs := by
  obtain ⟨f, e, -⟩ := hybridNorm_spec xs
  simp only [globalHybrid, e, bind, Except.bind] at h
  cases xs with
  | nil => simp [pyMin] at h
  | cons x xs =>
    simp only [pyMin, pyMax] at h
    cases h
    refine ⟨fun y hy => ⟨(foldl_min_spec xs x).2 y hy, (foldl_max_spec xs x).2 y hy⟩, (foldl_min_spec xs x).1,
      (foldl_max_spec xs x).1⟩

/-! ## C19 -/

theorem isclose_refl' (a t r : ℚ) (ht : 0 ≤ t) : isclose a a t r = true := isclose_self a t r ht

/-- **C19 (consistency).** Whenever the method succeeds, all three options are set, scaled thrust = scale factor ×
reference thrust exactly, a given reference thrust and a given scale factor are kept, a given scaled thrust is kept
when there is no scale factor and otherwise changed within the tolerance, and the default factor is 1. -/
theorem setReferenceThrust_consistent (d : List ThrustPt) (o r : ThrustOpts) (h : setReferenceThrust d o = .ok r) :
    ∃ ref t f, r = ⟨some ref, some t, some f⟩ ∧ t = f * ref ∧
      (∀ x, o.ref = some x → ref = x) ∧ (∀ x, o.factor = some x → f = x) ∧
      (∀ x, o.scaled = some x → isclose x t (1 / 10) (1 / 10000) = true) ∧
      (∀ x, o.scaled = some x → o.factor = none → t = x) ∧
      (o.scaled = none → o.factor = none → f = 1) := by
  obtain ⟨oref, oscaled, ofac⟩ := o
  unfold setReferenceThrust at h
  cases hr : findRef d ⟨oref, oscaled, ofac⟩ with
  | error e => rw [hr] at h; simp [bind, Except.bind] at h
  | ok ref =>
    have href : ∀ x, oref = some x → ref = x := by
      intro x hx
      subst hx
      simp only [findRef] at hr
      cases hr; rfl
    rw [hr] at h
    simp only [bind, Except.bind] at h
    cases ofac with
    | some f =>
      cases oscaled with
      | some t =>
        simp only at h
        by_cases hc : isclose t (ref * f) (1 / 10) (1 / 10000) = true
        · rw [if_pos hc] at h
          cases h
          exact ⟨ref, ref * f, f, rfl, by ring, href, by simp, by simpa using hc, by simp, by simp⟩
        · rw [if_neg hc] at h; cases h
      | none =>
        simp only at h
        cases h
        exact ⟨ref, ref * f, f, rfl, by ring, href, by simp, by simp, by simp, by simp⟩
    | none =>
      cases oscaled with
      | some t =>
        simp only at h
        by_cases hc : ref = 0
        · rw [if_pos hc] at h; cases h
        · rw [if_neg hc] at h
          cases h
          refine ⟨ref, t, t / ref, rfl, by field_simp, href, by simp, ?_, by simp, by simp⟩
          intro x hx
          simp only [Option.some.injEq] at hx
          subst hx
          exact isclose_self _ _ _ (by norm_num)
      | none =>
        simp only at h
        cases h
        exact ⟨ref, ref, 1, rfl, by ring, href, by simp, by simp, by simp, by simp⟩

/-- **C19 (conflicts).** The conflict error is raised exactly when both scale factor and scaled thrust are given and
do not match within the tolerance. -/
theorem setReferenceThrust_conflict_iff (d : List ThrustPt) (o : ThrustOpts) :
    setReferenceThrust d o = .error .attributeError ↔
      ∃ ref f t, findRef d o = .ok ref ∧ o.factor = some f ∧ o.scaled = some t ∧
        ¬ |t - ref * f| ≤ max (1 / 10000 * max |t| |ref * f|) (1 / 10) := by
  obtain ⟨oref, oscaled, ofac⟩ := o
  unfold setReferenceThrust
  cases hr : findRef d ⟨oref, oscaled, ofac⟩ with
  | error e =>
    have : e ≠ .attributeError := by
      rintro rfl
      simp only [findRef] at hr
      cases oref with
      | some x => simp at hr
      | none =>
        simp only at hr
        split at hr
        · simp at hr
        · cases hq : (slsPoints d).map ThrustPt.thrust with
          | nil => rw [hq] at hr; simp [pyMax] at hr
          | cons a l => rw [hq] at hr; simp [pyMax] at hr
    simp [bind, Except.bind, this]
  | ok ref =>
    simp only [bind, Except.bind]
    cases ofac with
    | some f =>
      cases oscaled with
      | some t =>
        simp only [Except.ok.injEq, Option.some.injEq]
        by_cases hc : isclose t (ref * f) (1 / 10) (1 / 10000) = true
        · rw [if_pos hc]
          simp only [isclose, decide_eq_true_eq] at hc
          constructor
          · intro h; cases h
          · rintro ⟨_, _, _, rfl, rfl, rfl, h⟩; exact absurd hc h
        · rw [if_neg hc]
          simp only [isclose, decide_eq_true_eq] at hc
          exact ⟨fun _ => ⟨ref, f, t, rfl, rfl, rfl, hc⟩, fun _ => rfl⟩
      | none => simp
    | none =>
      cases oscaled with
      | some t => simp only; split_ifs <;> simp
      | none => simp

/-- **C19 (reference thrust).** Without a given reference thrust it is the largest thrust among the sea-level static
points, and the method raises when there is none. -/
theorem findRef_spec (d : List ThrustPt) (o : ThrustOpts) (h : o.ref = none) :
    (findRef d o = .error .userWarning ∧
      ∀ p ∈ d, ¬(-10 < p.alt ∧ p.alt ≤ 10 ∧ -1/100 < p.mach ∧ p.mach < 1/100)) ∨
    ∃ p ∈ d, findRef d o = .ok p.thrust ∧ (-10 < p.alt ∧ p.alt ≤ 10 ∧ -1/100 < p.mach ∧ p.mach < 1/100) ∧
      ∀ q ∈ d, (-10 < q.alt ∧ q.alt ≤ 10 ∧ -1/100 < q.mach ∧ q.mach < 1/100) → q.thrust ≤ p.thrust := by
  have hmem : ∀ p, p ∈ slsPoints d ↔ p ∈ d ∧ (-10 < p.alt ∧ p.alt ≤ 10 ∧ -1/100 < p.mach ∧ p.mach < 1/100) := by
    intro p
    simp only [slsPoints, List.mem_filter, decide_eq_true_eq]
    have e1 : -machTol = -1/100 := by norm_num [machTol]
    have e2 : machTol = 1/100 := rfl
    have e3 : altTol = 10 := rfl
    rw [e1, e2, e3]
  unfold findRef
  rw [h]
  simp only
  by_cases he : slsPoints d = []
  · left
    rw [if_pos he]
    refine ⟨rfl, ?_⟩
    intro p hp hc
    have := (hmem p).2 ⟨hp, hc⟩
    rw [he] at this
    simp at this
  · right
    rw [if_neg he]
    obtain ⟨m, e, a, b⟩ := pyMax_spec ((slsPoints d).map ThrustPt.thrust) (by simpa using he)
    obtain ⟨p, hp, rfl⟩ := List.mem_map.1 a
    obtain ⟨hp1, hp2⟩ := (hmem p).1 hp
    refine ⟨p, hp1, e, hp2, ?_⟩
    intro q hq hqc
    exact b _ (List.mem_map.2 ⟨q, (hmem q).2 ⟨hq, hqc⟩, rfl⟩)

/-- **C19 (idempotence).** Running the method again on its own result changes nothing. -/
theorem setReferenceThrust_idem (d : List ThrustPt) (o r : ThrustOpts) (h : setReferenceThrust d o = .ok r) :
    setReferenceThrust d r = .ok r := by
  obtain ⟨ref, t, f, rfl, ht, -⟩ := setReferenceThrust_consistent d o r h
  have e : ref * f = t := by rw [ht]; ring
  simp only [setReferenceThrust, findRef, bind, Except.bind, e]
  rw [if_pos (isclose_self _ _ _ (by norm_num))]

example : setReferenceThrust [⟨0, 0, 28000⟩, ⟨0, 0, 28928⟩, ⟨0, 1/2, 40000⟩] ⟨none, some 14464, none⟩ =
    .ok ⟨some 28928, some 14464, some (1/2)⟩ := by decide +kernel

/-! ## C20, C35, C36 -/

/-- **C20 (what the check does).** The check for required variables raises exactly when variables are required and
not a single one of them is present. -/
theorem checkRequired_iff (required vars : List EVar) :
    checkRequired required vars = .error .userWarning ↔ required ≠ [] ∧ ∀ v ∈ required, v ∉ vars := by
  unfold checkRequired
  by_cases h : required.all (· ∈ vars) = true
  · rw [if_pos h]
    simp only [List.all_eq_true, decide_eq_true_eq] at h
    constructor
    · intro h'; cases h'
    · rintro ⟨h1, h2⟩
      obtain ⟨v, hv⟩ := List.exists_mem_of_ne_nil _ h1
      exact absurd (h v hv) (h2 v hv)
  · rw [if_neg h]
    simp only [List.all_eq_true, decide_eq_true_eq, not_forall] at h
    obtain ⟨v, hv, -⟩ := h
    simp only [List.filter_eq_nil_iff, decide_eq_true_eq]
    by_cases h2 : ∀ a ∈ vars, a ∉ required
    · rw [if_pos h2]
      exact ⟨fun _ => ⟨List.ne_nil_of_mem hv, fun w hw hw' => h2 w hw' hw⟩, fun _ => rfl⟩
    · rw [if_neg h2]
      constructor
      · intro h'; cases h'
      · rintro ⟨_, h3⟩
        exact absurd (fun a ha har => h3 a har ha) h2

/-- **C20 (partial).** A deck that has all the required variables is never rejected by the check. -/
theorem checkRequired_complete_partial (required vars : List EVar) (h : ∀ v ∈ required, v ∈ vars) :
    checkRequired required vars = .ok () := by
  unfold checkRequired
  rw [if_pos (by simpa using h)]

/-- **C20 (negation).** A deck without altitude and throttle is accepted although both are required by default. -/
theorem checkRequired_violated :
    EVar.altitude ∈ [EVar.mach, EVar.altitude, EVar.throttle, EVar.thrust] ∧
    checkRequired [EVar.mach, EVar.altitude, EVar.throttle, EVar.thrust] [EVar.mach, EVar.thrust] = .ok () := by
  decide

/-- **C20 (negation).** The thrust consistency check is the wrong way round: with net thrust, gross thrust and ram
drag given, it raises exactly when at some point the values agree within the tolerance. -/
theorem netThrust_check_violated (s : DeckSt) (h1 : EVar.ramDrag ∈ s.vars) (h2 : EVar.grossThrust ∈ s.vars)
    (h3 : EVar.thrust ∈ s.vars) :
    netThrust s = .error .userWarning ↔
      ∃ (i : ℕ) (g r t : ℚ), (s.col .grossThrust)[i]? = some g ∧ (s.col .ramDrag)[i]? = some r ∧
        (s.col .thrust)[i]? = some t ∧ |g - r - t| < 1 := by
  have hw : ∀ (g r t : List ℚ), ((List.zipWith (fun a b => |a - b|) (List.zipWith (· - ·) g r) t).any
      (fun x => decide (thrustTol > x)) = true) ↔
      ∃ (i : ℕ) (a b c : ℚ), g[i]? = some a ∧ r[i]? = some b ∧ t[i]? = some c ∧ |a - b - c| < 1 := by
    intro g
    induction g with
    | nil => intro r t; simp
    | cons a g ih =>
      intro r t
      cases r with
      | nil => simp
      | cons b r =>
        cases t with
        | nil => simp
        | cons c t =>
          simp only [List.zipWith_cons_cons, List.any_cons, Bool.or_eq_true, decide_eq_true_eq, ih]
          have e1 : thrustTol = 1 := rfl
          rw [e1]
          constructor
          · rintro (h | ⟨i, a', b', c', h⟩)
            · exact ⟨0, a, b, c, rfl, rfl, rfl, h⟩
            · exact ⟨i + 1, a', b', c', by simpa using h⟩
          · rintro ⟨i, a', b', c', h⟩
            cases i with
            | zero =>
              left
              simp only [List.getElem?_cons_zero, Option.some.injEq] at h
              obtain ⟨rfl, rfl, rfl, h⟩ := h
              exact h
            | succ i => exact Or.inr ⟨i, a', b', c', by simpa using h⟩
  unfold netThrust
  rw [if_pos ⟨h1, h2⟩]
  simp only
  rw [if_pos h3]
  split_ifs with h
  · exact ⟨fun _ => (hw _ _ _).1 h, fun _ => rfl⟩
  · exact ⟨fun h' => by simp at h', fun h' => absurd ((hw _ _ _).2 h') h⟩

/-- A deck with consistent thrust data is rejected, one with a difference of 100 lbf is accepted. -/
example :
    let vars : List EVar := [.mach, .altitude, .throttle, .thrust, .grossThrust, .ramDrag]
    (netThrust ⟨vars, [(.thrust, [90]), (.grossThrust, [100]), (.ramDrag, [10])]⟩).map (·.vars) = .error .userWarning ∧
    (netThrust ⟨vars, [(.thrust, [190]), (.grossThrust, [100]), (.ramDrag, [10])]⟩).map (·.vars) = .ok vars := by
  decide +kernel

theorem col_set_same (s : DeckSt) (vs : List EVar) (v : EVar) (x : List ℚ) :
    (DeckSt.mk vs (Dict.set s.data v x)).col v = x := by
  simp [DeckSt.col, Dict.get?_set]

theorem get?_filter_ne {κ α : Type} [DecidableEq κ] (d : Dict κ α) (k k' : κ) (h : k ≠ k') :
    Dict.get? (d.filter (fun kv => kv.1 ≠ k')) k = Dict.get? d k := by
  induction d with
  | nil => rfl
  | cons a d ih =>
    obtain ⟨a, v⟩ := a
    simp only [List.filter_cons]
    by_cases ha : a = k'
    · subst ha
      have e : decide ((a, v).1 ≠ a) = false := by simp
      rw [e]
      simp only [Bool.false_eq_true, if_false, Dict.get?]
      rw [if_neg (fun e => h e.symm)]
      exact ih
    · have e : decide ((a, v).1 ≠ k') = true := by simpa using ha
      rw [e]
      simp only [if_true, Dict.get?]
      rw [ih]

theorem popVar_col (v w : EVar) (s : DeckSt) (h : w ≠ v) : (popVar v s).col w = s.col w := by
  unfold popVar
  split_ifs
  · simp only [DeckSt.col]; rw [get?_filter_ne _ _ _ h]
  · rfl

theorem popVar_mem (v w : EVar) (s : DeckSt) : w ∈ (popVar v s).vars ↔ w ∈ s.vars ∧ w ≠ v := by
  unfold popVar
  split_ifs with h
  · simp
  · exact ⟨fun hw => ⟨hw, fun e => h (e ▸ hw)⟩, fun hw => hw.1⟩

theorem popVars_col_thrust (q : Bool) (s : DeckSt) : (popVars q s).col .thrust = s.col .thrust := by
  unfold popVars
  simp only
  split_ifs
  · rw [popVar_col _ _ _ (by decide), popVar_col _ _ _ (by decide), popVar_col _ _ _ (by decide),
      popVar_col _ _ _ (by decide)]
  · rw [popVar_col _ _ _ (by decide), popVar_col _ _ _ (by decide), popVar_col _ _ _ (by decide)]

theorem fillZeros_col (s : DeckSt) (v : EVar) (h : (s.col v).length ≠ 0) : (fillZeros s).1.col v = s.col v := by
  have aux : ∀ (n : ℕ) (d : Dict EVar (List ℚ)), ((Dict.get? d v).getD []).length ≠ 0 →
      Dict.get? (d.map (fun kv => if kv.2.length = 0 then (kv.1, List.replicate n 0) else kv)) v = Dict.get? d v := by
    intro n d
    induction d with
    | nil => intro _; rfl
    | cons a d ih =>
      obtain ⟨k, x⟩ := a
      intro h
      simp only [List.map_cons]
      by_cases hk : k = v
      · subst hk
        simp only [Dict.get?, if_true, Option.getD_some] at h
        rw [if_neg h]
        simp [Dict.get?]
      · simp only [Dict.get?, if_neg hk] at h
        by_cases hx : x.length = 0
        · rw [if_pos hx]; simp only [Dict.get?, if_neg hk]; exact ih h
        · rw [if_neg hx]; simp only [Dict.get?, if_neg hk]; exact ih h
  simp only [fillZeros, DeckSt.col] at h ⊢
  rw [aux _ _ h]

/-- **C35 (thrust bookkeeping).** Whenever the checks succeed (without the negative-thrust option) the net thrust used
from then on is the given net thrust — or gross thrust minus ram drag if no net thrust is given — plus the tailpipe
thrust if there is one; a deck with tailpipe thrust only uses that.  Ram drag, gross thrust and tailpipe thrust are no
longer engine variables. -/
theorem checkData_thrust (required : List EVar) (quiet : Bool) (s : DeckSt) (r : DeckSt × ℕ)
    (h : checkData required false quiet s = .ok r) :
    let net : Option (List ℚ) :=
      if EVar.thrust ∈ s.vars then some (s.col .thrust)
      else if EVar.ramDrag ∈ s.vars ∧ EVar.grossThrust ∈ s.vars then
        some (List.zipWith (· - ·) (s.col .grossThrust) (s.col .ramDrag))
      else none
    (∀ n, net = some n → EVar.tailpipeThrust ∉ s.vars → n ≠ [] → r.1.col .thrust = n) ∧
    (∀ n, net = some n → EVar.tailpipeThrust ∈ s.vars →
      List.zipWith (· + ·) n (s.col .tailpipeThrust) ≠ [] →
      r.1.col .thrust = List.zipWith (· + ·) n (s.col .tailpipeThrust)) ∧
    (net = none → EVar.tailpipeThrust ∈ s.vars → s.col .tailpipeThrust ≠ [] →
      r.1.col .thrust = s.col .tailpipeThrust) ∧
    (∀ v ∈ [EVar.ramDrag, EVar.grossThrust, EVar.tailpipeThrust], v ∉ r.1.vars) ∧
    (net ≠ none ∨ EVar.tailpipeThrust ∈ s.vars → EVar.thrust ∈ r.1.vars) := by
  intro net
  unfold checkData at h
  -- what netThrust leaves
  have hN : ∃ s1, netThrust s = .ok s1 ∧ (∀ v, v ≠ EVar.thrust → (v ∈ s1.vars ↔ v ∈ s.vars) ∧ s1.col v = s.col v) ∧
      (EVar.thrust ∈ s1.vars ↔ net ≠ none) ∧ (∀ n, net = some n → s1.col .thrust = n) := by
    cases hn : netThrust s with
    | error e => rw [hn] at h; simp [bind, Except.bind] at h
    | ok s1 =>
      refine ⟨s1, rfl, ?_⟩
      unfold netThrust at hn
      by_cases hb : EVar.ramDrag ∈ s.vars ∧ EVar.grossThrust ∈ s.vars
      · rw [if_pos hb] at hn
        by_cases ht : EVar.thrust ∈ s.vars
        · simp only [if_pos ht] at hn
          split at hn
          · cases hn
          · cases hn
            refine ⟨fun v _ => ⟨Iff.rfl, rfl⟩, by simp [net, ht], ?_⟩
            intro n hnn
            simp only [net, if_pos ht, Option.some.injEq] at hnn
            exact hnn
        · simp only [if_neg ht] at hn
          cases hn
          refine ⟨?_, ?_, ?_⟩
          · intro v hv
            refine ⟨by simp [hv], ?_⟩
            simp [DeckSt.col, Dict.get?_set, Ne.symm hv]
          · simp [net, ht, hb]
          · intro n hnn
            simp only [net, if_neg ht, if_pos hb, Option.some.injEq] at hnn
            rw [col_set_same, hnn]
      · rw [if_neg hb] at hn
        cases hn
        refine ⟨fun v _ => ⟨Iff.rfl, rfl⟩, ?_, ?_⟩
        · by_cases ht : EVar.thrust ∈ s.vars <;> simp [net, ht, hb]
        · intro n hnn
          by_cases ht : EVar.thrust ∈ s.vars
          · simp only [net, if_pos ht, Option.some.injEq] at hnn; exact hnn
          · simp [net, ht, hb] at hnn
  obtain ⟨s1, e1, a1, a2, a3⟩ := hN
  rw [e1] at h
  simp only [bind, Except.bind] at h
  cases hq : checkRequired required (popVars quiet (addTailpipe s1)).vars with
  | error e => rw [hq] at h; simp at h
  | ok u =>
    rw [hq] at h
    simp only [dropNegative, Bool.false_eq_true, if_false, Except.ok.injEq] at h
    subst h
    have htp := a1 EVar.tailpipeThrust (by decide)
    have hcol : (popVars quiet (addTailpipe s1)).col .thrust = (addTailpipe s1).col .thrust := popVars_col_thrust _ _
    have hres : ∀ x, (addTailpipe s1).col .thrust = x → x ≠ [] →
        (fillZeros (popVars quiet (addTailpipe s1))).1.col .thrust = x := by
      intro x hx hxne
      rw [fillZeros_col, hcol, hx]
      rw [hcol, hx]
      simpa using hxne
    refine ⟨?_, ?_, ?_, ?_, ?_⟩
    · intro n hn ht hne
      apply hres _ _ hne
      unfold addTailpipe
      rw [if_neg (fun h => ht (htp.1.1 h))]
      exact a3 n hn
    · intro n hn ht hne
      apply hres _ _ hne
      unfold addTailpipe
      rw [if_pos (htp.1.2 ht), if_pos (a2.2 (by rw [hn]; simp)), col_set_same, a3 n hn, htp.2]
    · intro hn ht hne
      apply hres _ _ hne
      unfold addTailpipe
      rw [if_pos (htp.1.2 ht), if_neg (fun h => a2.1 h hn), col_set_same, htp.2]
    · intro v hv
      have : v ∉ (popVars quiet (addTailpipe s1)).vars := by
        unfold popVars
        simp only
        intro hm
        have h2 : v ∈ (popVar .tailpipeThrust (popVar .grossThrust (popVar .ramDrag (addTailpipe s1)))).vars := by
          split_ifs at hm
          · exact ((popVar_mem _ _ _).1 hm).1
          · exact hm
        rw [popVar_mem, popVar_mem, popVar_mem] at h2
        simp only [List.mem_cons, List.not_mem_nil, or_false] at hv
        rcases hv with rfl | rfl | rfl
        · exact h2.1.1.2 rfl
        · exact h2.1.2 rfl
        · exact h2.2 rfl
      exact this
    · intro hor
      have h1 : EVar.thrust ∈ (addTailpipe s1).vars := by
        unfold addTailpipe
        by_cases ht : EVar.tailpipeThrust ∈ s1.vars
        · rw [if_pos ht]
          by_cases hth : EVar.thrust ∈ s1.vars
          · rw [if_pos hth]; exact hth
          · rw [if_neg hth]; simp
        · rw [if_neg ht]
          rcases hor with hor | hor
          · exact a2.2 hor
          · exact absurd (htp.1.2 hor) ht
      show EVar.thrust ∈ (popVars quiet (addTailpipe s1)).vars
      unfold popVars
      simp only
      split_ifs
      · rw [popVar_mem, popVar_mem, popVar_mem, popVar_mem]
        exact ⟨⟨⟨⟨h1, by decide⟩, by decide⟩, by decide⟩, by decide⟩
      · rw [popVar_mem, popVar_mem, popVar_mem]
        exact ⟨⟨⟨h1, by decide⟩, by decide⟩, by decide⟩

/-- A deck with gross thrust, ram drag and tailpipe thrust. -/
example : ((checkData [.mach, .altitude, .throttle, .thrust] false false
    ⟨[.mach, .altitude, .throttle, .grossThrust, .ramDrag, .tailpipeThrust],
      [(.mach, [0, 1/2]), (.altitude, [0, 0]), (.throttle, [1, 1]), (.grossThrust, [100, 90]), (.ramDrag, [10, 20]),
       (.tailpipeThrust, [1, 2]), (.thrust, []), (.noxRate, [])]⟩).map (fun r => (r.1.col .thrust, r.1.col .noxRate))) =
    .ok ([91, 72], [0, 0]) := by decide +kernel

/-! ### Negative thrust -/

/-- Every column is empty or has the length `n`. -/
def ColLen (n : ℕ) (s : DeckSt) : Prop := ∀ kv ∈ s.data, kv.2.length = 0 ∨ kv.2.length = n

theorem mem_set {κ α : Type} [DecidableEq κ] (d : Dict κ α) (k : κ) (v : α) (kv : κ × α)
    (h : kv ∈ Dict.set d k v) : kv ∈ d ∨ kv = (k, v) := by
  induction d with
  | nil => simp only [Dict.set, List.mem_singleton] at h; exact Or.inr h
  | cons a d ih =>
    obtain ⟨a, w⟩ := a
    simp only [Dict.set] at h
    by_cases ha : a = k
    · rw [if_pos ha] at h
      rcases List.mem_cons.1 h with h | h
      · exact Or.inr (by rw [h, ha])
      · exact Or.inl (List.mem_cons_of_mem _ h)
    · rw [if_neg ha] at h
      rcases List.mem_cons.1 h with h | h
      · exact Or.inl (by rw [h]; exact List.mem_cons_self)
      · rcases ih h with h | h
        · exact Or.inl (List.mem_cons_of_mem _ h)
        · exact Or.inr h

theorem ColLen.col {n : ℕ} {s : DeckSt} (h : ColLen n s) (v : EVar) :
    (s.col v).length = 0 ∨ (s.col v).length = n := by
  unfold DeckSt.col
  cases hg : Dict.get? s.data v with
  | none => exact Or.inl rfl
  | some x => exact h _ (Dict.mem_of_get? s.data hg)

theorem ColLen.set {n : ℕ} {s : DeckSt} (h : ColLen n s) (v : EVar) (x : List ℚ) (vs : List EVar)
    (hx : x.length = 0 ∨ x.length = n) : ColLen n ⟨vs, Dict.set s.data v x⟩ := by
  intro kv hkv
  rcases mem_set _ _ _ _ hkv with hk | hk
  · exact h kv hk
  · rw [hk]; exact hx

theorem ColLen.pop {n : ℕ} {s : DeckSt} (h : ColLen n s) (v : EVar) : ColLen n (popVar v s) := by
  unfold popVar
  split_ifs
  · intro kv hkv
    exact h kv (List.mem_filter.1 hkv).1
  · exact h

/-- **C35 (columns and shaft power).** Whenever the checks succeed on a deck whose columns all have one common length
or are empty, afterwards every column has exactly that length (the stored model length), unused ones being zero;
corrected shaft power is given up, and only it, when both shaft powers are present and the run is not quiet. -/
theorem checkData_columns (required : List EVar) (quiet : Bool) (s : DeckSt) (r : DeckSt × ℕ)
    (h : checkData required false quiet s = .ok r) (hl : ColLen (s.col .altitude).length s) :
    r.2 = (s.col .altitude).length ∧ (∀ kv ∈ r.1.data, kv.2.length = (s.col .altitude).length) ∧
    (∀ v ∈ [EVar.mach, .altitude, .throttle, .hybridThrottle, .shaftPower, .rpm, .fuelFlow, .electricPowerIn,
      .noxRate, .t4, .torque], (v ∈ r.1.vars ↔ v ∈ s.vars) ∧ (s.col v ≠ [] → r.1.col v = s.col v)) ∧
    (EVar.shaftPowerCorrected ∈ r.1.vars ↔
      EVar.shaftPowerCorrected ∈ s.vars ∧ (EVar.shaftPower ∈ s.vars → quiet = true)) := by
  generalize hn0 : (s.col .altitude).length = n0 at hl ⊢
  unfold checkData at h
  have zl : ∀ (f : ℚ → ℚ → ℚ) (a b : List ℚ), (a.length = 0 ∨ a.length = n0) → (b.length = 0 ∨ b.length = n0) →
      (List.zipWith f a b).length = 0 ∨ (List.zipWith f a b).length = n0 := by
    intro f a b ha hb
    rw [List.length_zipWith]
    omega
  -- what netThrust leaves
  have hN : ∃ s1, netThrust s = .ok s1 ∧ ColLen n0 s1 ∧
      ∀ v, v ≠ EVar.thrust → (v ∈ s1.vars ↔ v ∈ s.vars) ∧ s1.col v = s.col v := by
    cases hn : netThrust s with
    | error e => rw [hn] at h; simp [bind, Except.bind] at h
    | ok s1 =>
      refine ⟨s1, rfl, ?_⟩
      unfold netThrust at hn
      by_cases hb : EVar.ramDrag ∈ s.vars ∧ EVar.grossThrust ∈ s.vars
      · rw [if_pos hb] at hn
        by_cases ht : EVar.thrust ∈ s.vars
        · simp only [if_pos ht] at hn
          split at hn
          · cases hn
          · cases hn
            exact ⟨hl, fun v _ => ⟨Iff.rfl, rfl⟩⟩
        · simp only [if_neg ht] at hn
          cases hn
          refine ⟨hl.set _ _ _ (zl _ _ _ (hl.col _) (hl.col _)), ?_⟩
          intro v hv
          refine ⟨by simp [hv], ?_⟩
          simp [DeckSt.col, Dict.get?_set, Ne.symm hv]
      · rw [if_neg hb] at hn
        cases hn
        exact ⟨hl, fun v _ => ⟨Iff.rfl, rfl⟩⟩
  obtain ⟨s1, e1, l1, a1⟩ := hN
  have hT : ColLen n0 (addTailpipe s1) ∧
      ∀ v, v ≠ EVar.thrust → (v ∈ (addTailpipe s1).vars ↔ v ∈ s1.vars) ∧ (addTailpipe s1).col v = s1.col v := by
    unfold addTailpipe
    split_ifs
    · refine ⟨l1.set _ _ _ (zl _ _ _ (l1.col _) (l1.col _)), ?_⟩
      intro v hv
      refine ⟨Iff.rfl, ?_⟩
      simp [DeckSt.col, Dict.get?_set, Ne.symm hv]
    · refine ⟨l1.set _ _ _ (l1.col _), ?_⟩
      intro v hv
      refine ⟨by simp [hv], ?_⟩
      simp [DeckSt.col, Dict.get?_set, Ne.symm hv]
    · exact ⟨l1, fun v _ => ⟨Iff.rfl, rfl⟩⟩
  obtain ⟨l2, a2⟩ := hT
  rw [e1] at h
  simp only [bind, Except.bind] at h
  generalize addTailpipe s1 = s2 at h l2 a2
  -- the removals
  have hP : ColLen n0 (popVars quiet s2) ∧
      (∀ v, v ∉ [EVar.ramDrag, .grossThrust, .tailpipeThrust, .shaftPowerCorrected] →
        (v ∈ (popVars quiet s2).vars ↔ v ∈ s2.vars) ∧ (popVars quiet s2).col v = s2.col v) ∧
      (EVar.shaftPowerCorrected ∈ (popVars quiet s2).vars ↔
        EVar.shaftPowerCorrected ∈ s2.vars ∧ (EVar.shaftPower ∈ s2.vars → quiet = true)) := by
    have m3 : ∀ v, v ∉ [EVar.ramDrag, .grossThrust, .tailpipeThrust] →
        (v ∈ (popVar .tailpipeThrust (popVar .grossThrust (popVar .ramDrag s2))).vars ↔ v ∈ s2.vars) ∧
        (popVar .tailpipeThrust (popVar .grossThrust (popVar .ramDrag s2))).col v = s2.col v := by
      intro v hv
      simp only [List.mem_cons, List.not_mem_nil, or_false, not_or] at hv
      obtain ⟨h1, h2, h3⟩ := hv
      refine ⟨by simp [popVar_mem, h1, h2, h3], ?_⟩
      rw [popVar_col _ _ _ h3, popVar_col _ _ _ h2, popVar_col _ _ _ h1]
    have l3 : ColLen n0 (popVar .tailpipeThrust (popVar .grossThrust (popVar .ramDrag s2))) :=
      ((l2.pop _).pop _).pop _
    unfold popVars
    simp only
    generalize popVar .tailpipeThrust (popVar .grossThrust (popVar .ramDrag s2)) = s3 at m3 l3
    have b1 := (m3 .shaftPower (by decide)).1
    have b2 := (m3 .shaftPowerCorrected (by decide)).1
    split_ifs with hc
    · refine ⟨l3.pop _, ?_, ?_⟩
      · intro v hv
        have hv' : v ∉ [EVar.ramDrag, .grossThrust, .tailpipeThrust] := by
          intro hm; apply hv; simp only [List.mem_cons, List.not_mem_nil, or_false] at hm ⊢; tauto
        have hv2 : v ≠ EVar.shaftPowerCorrected := by
          rintro rfl; exact hv (by decide)
        refine ⟨?_, ?_⟩
        · rw [popVar_mem]
          exact ⟨fun hm => (m3 v hv').1.1 hm.1, fun hm => ⟨(m3 v hv').1.2 hm, hv2⟩⟩
        · rw [popVar_col _ _ _ hv2, (m3 v hv').2]
      · rw [popVar_mem]
        constructor
        · intro hm; exact absurd rfl hm.2
        · intro hm
          have := hm.2 (b1.1 hc.1)
          rw [hc.2.2] at this; cases this
    · refine ⟨l3, ?_, ?_⟩
      · intro v hv
        apply m3
        intro hm; apply hv; simp only [List.mem_cons, List.not_mem_nil, or_false] at hm ⊢; tauto
      · rw [b2]
        constructor
        · intro hm
          refine ⟨hm, fun hs => ?_⟩
          cases hq : quiet with
          | true => rfl
          | false => exact absurd ⟨b1.2 hs, b2.2 hm, hq⟩ hc
        · exact fun hm => hm.1
  obtain ⟨l4, a4, c4⟩ := hP
  cases hq : checkRequired required (popVars quiet s2).vars with
  | error e => rw [hq] at h; simp at h
  | ok u =>
    rw [hq] at h
    simp only [dropNegative, Bool.false_eq_true, if_false, Except.ok.injEq] at h
    subst h
    have halt : ((popVars quiet s2).col .altitude).length = n0 := by
      rw [(a4 .altitude (by decide)).2, (a2 .altitude (by decide)).2, (a1 .altitude (by decide)).2, hn0]
    refine ⟨halt, ?_, ?_, ?_⟩
    · intro kv hkv
      simp only [fillZeros, halt] at hkv
      obtain ⟨kv0, hm, rfl⟩ := List.mem_map.1 hkv
      split_ifs with h0
      · simp
      · exact (l4 kv0 hm).resolve_left h0
    · intro v hv
      have hv' : v ∉ [EVar.ramDrag, .grossThrust, .tailpipeThrust, .shaftPowerCorrected] ∧ v ≠ .thrust := by
        revert hv; revert v; decide
      have e1 := a4 v hv'.1
      have e2 := a2 v hv'.2
      have e3 := a1 v hv'.2
      refine ⟨?_, ?_⟩
      · show v ∈ (popVars quiet s2).vars ↔ _
        rw [e1.1, e2.1, e3.1]
      · intro hne
        have : (popVars quiet s2).col v = s.col v := by rw [e1.2, e2.2, e3.2]
        rw [fillZeros_col, this]
        rw [this]; simpa using hne
    · show EVar.shaftPowerCorrected ∈ (popVars quiet s2).vars ↔ _
      rw [c4, (a2 _ (by decide)).1, (a1 _ (by decide)).1, (a2 _ (by decide)).1, (a1 _ (by decide)).1]


theorem takeIdx_filter (xs : List ℚ) (is : List ℕ) (h : ∀ i ∈ is, i < xs.length) :
    takeIdx xs is = .ok (is.map (fun i => xs.getD i 0)) := by
  induction is with
  | nil => rfl
  | cons i is ih =>
    have hi := h i (by simp)
    simp only [takeIdx, ih (fun j hj => h j (by simp [hj])), List.getElem?_eq_getElem hi, List.map_cons]
    congr 2
    simp [List.getD_eq_getElem?_getD, hi]

theorem takeAll_ok (is : List ℕ) (d : List (EVar × List ℚ)) (h : ∀ kv ∈ d, ∀ i ∈ is, i < kv.2.length) :
    takeAll is d = .ok (d.map (fun kv => (kv.1, is.map (fun i => kv.2.getD i 0)))) := by
  induction d with
  | nil => rfl
  | cons kv d ih =>
    obtain ⟨k, xs⟩ := kv
    simp only [takeAll, takeIdx_filter xs is (h (k, xs) (by simp)), ih (fun kv hkv => h kv (by simp [hkv])),
      List.map_cons]

/-- **C36 (partial).** If every column has a value for every point, dropping the negative thrusts keeps exactly the
rows whose thrust is not negative, the same rows and in the same order in every column. -/
theorem dropNegative_partial (s : DeckSt) (h : ∀ kv ∈ s.data, kv.2.length = (s.col .thrust).length) :
    ∃ keep : List ℕ, keep.Pairwise (· < ·) ∧
      (∀ i, i ∈ keep ↔ ∃ t, (s.col .thrust)[i]? = some t ∧ 0 ≤ t) ∧
      dropNegative true s = .ok ⟨s.vars, s.data.map (fun kv => (kv.1, keep.map (fun i => kv.2.getD i 0)))⟩ := by
  refine ⟨keepIdx (s.col .thrust), ?_, ?_, ?_⟩
  · exact List.Pairwise.filter _ List.pairwise_lt_range
  · intro i
    simp only [keepIdx, List.mem_filter, List.mem_range, decide_eq_true_eq, List.getD_eq_getElem?_getD]
    constructor
    · rintro ⟨h1, h2⟩
      rw [List.getElem?_eq_getElem h1] at h2 ⊢
      exact ⟨_, rfl, h2⟩
    · rintro ⟨t, h1, h2⟩
      rw [h1]
      exact ⟨(List.getElem?_eq_some_iff.1 h1).1, h2⟩
  · unfold dropNegative
    rw [if_pos rfl, takeAll_ok]
    · rfl
    · intro kv hkv i hi
      rw [h kv hkv]
      simp only [keepIdx, List.mem_filter, List.mem_range] at hi
      exact hi.1

/-- **C36 (negation).** As soon as one variable has no data (TORQUE never has when reading a file) and one point has a
non-negative thrust, the option IGNORE_NEGATIVE_THRUST makes the deck unusable: an IndexError is raised. -/
theorem dropNegative_violated (s : DeckSt) (v : EVar) (h : (v, []) ∈ s.data) (t : ℚ) (ht : t ∈ s.col .thrust)
    (h0 : 0 ≤ t) : ∃ e, dropNegative true s = .error e := by
  have hne : keepIdx (s.col .thrust) ≠ [] := by
    obtain ⟨i, hi, rfl⟩ := List.getElem_of_mem ht
    apply List.ne_nil_of_mem (a := i)
    simp only [keepIdx, List.mem_filter, List.mem_range, decide_eq_true_eq, List.getD_eq_getElem?_getD]
    refine ⟨hi, ?_⟩
    rw [List.getElem?_eq_getElem hi]
    exact h0
  have aux : ∀ d : List (EVar × List ℚ), (v, []) ∈ d → ∃ e, takeAll (keepIdx (s.col .thrust)) d = .error e := by
    intro d
    induction d with
    | nil => intro h; simp at h
    | cons kv d ih =>
      obtain ⟨k, xs⟩ := kv
      intro hm
      cases h1 : takeIdx xs (keepIdx (s.col .thrust)) with
      | error e => exact ⟨e, by simp only [takeAll, h1]⟩
      | ok a =>
        rcases List.mem_cons.1 hm with hm | hm
        · simp only [Prod.mk.injEq] at hm
          obtain ⟨rfl, rfl⟩ := hm
          exfalso
          revert h1 hne
          cases keepIdx (s.col .thrust) with
          | nil => intro h; exact absurd rfl h
          | cons i is => intro _; simp [takeIdx]
        · obtain ⟨e, he⟩ := ih hm
          exact ⟨e, by simp only [takeAll, h1, he]⟩
  obtain ⟨e, he⟩ := aux s.data h
  refine ⟨e, ?_⟩
  simp only [dropNegative, if_true, he, bind, Except.bind]

example : ((checkData [.mach, .altitude, .throttle, .thrust] true false
    ⟨[.mach, .altitude, .throttle, .thrust],
      [(.mach, [0, 0]), (.altitude, [0, 0]), (.throttle, [0, 1]), (.thrust, [-5, 100]), (.torque, [])]⟩).map
        (fun r => r.2)) = .error .indexError := by decide +kernel

end Verif
