import Verif.Model.EngineOptions
import Mathlib.Tactic.SplitIfs
import Mathlib.Algebra.BigOperators.Group.List.Basic
import Mathlib.Algebra.Order.Ring.Int

/-! # C15, C34: engine counts and vectorised engine options -/

namespace Verif

theorem fixMounts_cases (n f w : ℤ) :
    (f + w = 0 ∧ 1 < n ∧ fixMounts ⟨n, f, w⟩ = ⟨n, f, n⟩) ∨
    (f + w = 0 ∧ n ≤ 1 ∧ fixMounts ⟨n, f, w⟩ = ⟨n, n, w⟩) ∨
    (f + w ≠ 0 ∧ n < f + w ∧ fixMounts ⟨n, f, w⟩ = ⟨f + w, f, w⟩) ∨
    (f + w ≠ 0 ∧ f + w + 1 < n ∧ fixMounts ⟨n, f, w⟩ = ⟨n, f, w + (n - f - w)⟩) ∨
    (f + w ≠ 0 ∧ f + w + 1 = n ∧ w ≠ 0 ∧ fixMounts ⟨n, f, w⟩ = ⟨n, f + (n - f - w), w⟩) ∨
    (f + w ≠ 0 ∧ f + w + 1 = n ∧ w = 0 ∧ fixMounts ⟨n, f, w⟩ = ⟨n, f, w⟩) ∨
    (f + w ≠ 0 ∧ f + w = n ∧ fixMounts ⟨n, f, w⟩ = ⟨n, f, w⟩) := by
  unfold fixMounts
  simp only
  by_cases h1 : f + w = 0
  · by_cases h2 : n > 1
    · left; exact ⟨h1, h2, by rw [if_pos h1, if_pos h2]⟩
    · right; left; exact ⟨h1, by omega, by rw [if_pos h1, if_neg h2]⟩
  · by_cases h2 : f + w > n
    · right; right; left; exact ⟨h1, h2, by rw [if_neg h1, if_pos h2]⟩
    · by_cases h3 : f + w < n
      · by_cases h4 : n - f - w > 1
        · right; right; right; left
          exact ⟨h1, by omega, by rw [if_neg h1, if_neg h2, if_pos h3, if_pos h4]⟩
        · by_cases h5 : w = 0
          · right; right; right; right; right; left
            refine ⟨h1, by omega, h5, ?_⟩
            rw [if_neg h1, if_neg h2, if_pos h3, if_neg h4, if_neg (fun h => h.2 h5)]
          · right; right; right; right; left
            refine ⟨h1, by omega, h5, ?_⟩
            rw [if_neg h1, if_neg h2, if_pos h3, if_neg h4, if_pos ⟨by omega, h5⟩]
      · right; right; right; right; right; right
        exact ⟨h1, by omega, by rw [if_neg h1, if_neg h2, if_neg h3]⟩

/-- **C15 (exactly when).** For non-negative counts of one engine model: after preprocessing the total equals wing +
fuselage engines, except exactly in one case: fuselage engines given, no wing engines, and one engine more in the
total. -/
theorem fixMounts_consistent_iff (m : Mounts) (h1 : 0 ≤ m.num) (h2 : 0 ≤ m.fuse) (h3 : 0 ≤ m.wing) :
    (fixMounts m).num = (fixMounts m).fuse + (fixMounts m).wing ↔
      ¬(0 < m.fuse ∧ m.wing = 0 ∧ m.num = m.fuse + 1) := by
  obtain ⟨n, f, w⟩ := m
  simp only at h1 h2 h3
  rcases fixMounts_cases n f w with h | h | h | h | h | h | h
  all_goals
    rcases h with ⟨a, b, e⟩
    first
      | (rw [e]; dsimp only; omega)
      | (rcases e with ⟨c, e⟩; rw [e]; dsimp only; omega)

/-- **C15 (nothing given is lowered).** Counts are only ever raised to reach consistency. -/
theorem fixMounts_raises (m : Mounts) (h1 : 0 ≤ m.num) (h2 : 0 ≤ m.fuse) (h3 : 0 ≤ m.wing) :
    m.num ≤ (fixMounts m).num ∧ m.fuse ≤ (fixMounts m).fuse ∧ m.wing ≤ (fixMounts m).wing ∧
    ((fixMounts m).num = m.num ∨ (fixMounts m).num = m.fuse + m.wing) := by
  obtain ⟨n, f, w⟩ := m
  simp only at h1 h2 h3
  rcases fixMounts_cases n f w with h | h | h | h | h | h | h
  all_goals
    rcases h with ⟨a, b, e⟩
    first
      | (rw [e]; dsimp only; omega)
      | (rcases e with ⟨c, e⟩; rw [e]; dsimp only; omega)

/-- **C15 (idempotent).** Running the consistency step again changes nothing. -/
theorem fixMounts_idem (m : Mounts) (h1 : 0 ≤ m.num) (h2 : 0 ≤ m.fuse) (h3 : 0 ≤ m.wing) :
    fixMounts (fixMounts m) = fixMounts m := by
  have hr := fixMounts_raises m h1 h2 h3
  have hc := fixMounts_consistent_iff m h1 h2 h3
  have hm : ∀ m : Mounts, m.num = m.fuse + m.wing → 0 ≤ m.fuse → 0 ≤ m.wing → fixMounts m = m := by
    rintro ⟨n, f, w⟩ h hf hw
    simp only at h hf hw
    rcases fixMounts_cases n f w with h | h | h | h | h | h | h
    all_goals
      rcases h with ⟨a, b, e⟩
      first
        | exact e.trans ((Mounts.mk.injEq ..).mpr ⟨by omega, by omega, by omega⟩)
        | (rcases e with ⟨c, e⟩; exact e.trans ((Mounts.mk.injEq ..).mpr ⟨by omega, by omega, by omega⟩))
  by_cases hb : 0 < m.fuse ∧ m.wing = 0 ∧ m.num = m.fuse + 1
  · obtain ⟨n, f, w⟩ := m
    obtain ⟨a, b, c⟩ := hb
    simp only at a b c
    subst b c
    have e : fixMounts ⟨f + 1, f, 0⟩ = ⟨f + 1, f, 0⟩ := by
      rcases fixMounts_cases (f + 1) f 0 with h | h | h | h | h | h | h
      all_goals
        rcases h with ⟨a, b, e⟩
        first
          | exact e.trans ((Mounts.mk.injEq ..).mpr ⟨by omega, by omega, by omega⟩)
          | (rcases e with ⟨c, e⟩; exact e.trans ((Mounts.mk.injEq ..).mpr ⟨by omega, by omega, by omega⟩))
    rw [e, e]
  · exact hm _ (hc.2 hb) (by omega) (by omega)

/-- **C15 violated.** Three engines, two of them given as fuselage-mounted, none on the wing: the third engine is
mounted nowhere and no exception is raised. -/
theorem countEngines_unmounted_violated :
    countEngines 1 (some [3]) (some [2]) none = .ok ⟨[⟨3, 2, 0⟩], 3, 2, 0⟩ := by
  decide +kernel

/-- **C15 (all engine models, totals).** For any number of engine models and any given subset of the three arrays
(one non-negative entry per model): preprocessing succeeds; outside the case above every model is consistent, and the
vehicle totals are consistent too. -/
theorem countEngines_totals_partial (n : ℕ) (num fuse wing : Option (List ℤ))
    (hl : ∀ a ∈ [num, fuse, wing], ∀ l, a = some l → l.length = n ∧ ∀ x ∈ l, 0 ≤ x)
    (hok : ∀ i < n, ¬(0 < (fuse.getD (List.replicate n 0)).getD i 0 ∧ (wing.getD (List.replicate n 0)).getD i 0 = 0 ∧
      (num.getD (List.replicate n 0)).getD i 0 = (fuse.getD (List.replicate n 0)).getD i 0 + 1)) :
    ∃ t, countEngines n num fuse wing = .ok t ∧ t.engines.length = n ∧
      (∀ m ∈ t.engines, m.num = m.fuse + m.wing) ∧ t.totalNum = t.totalFuse + t.totalWing ∧
      t.totalNum = (t.engines.map Mounts.num).sum ∧ t.totalWing = (t.engines.map Mounts.wing).sum ∧
      t.totalFuse = (t.engines.map Mounts.fuse).sum := by
  have hfill : ∀ a ∈ [num, fuse, wing], (a.getD (List.replicate n 0)).length = n ∧
      ∀ i, 0 ≤ (a.getD (List.replicate n 0)).getD i 0 := by
    intro a ha
    rcases hv : a with _ | l
    · refine ⟨by simp, fun i => ?_⟩
      by_cases h : i < n <;> simp [List.getD_eq_getElem?_getD, List.getElem?_replicate, h]
    · obtain ⟨h1, h2⟩ := hl a ha l hv
      refine ⟨h1, fun i => ?_⟩
      simp only [Option.getD_some, List.getD_eq_getElem?_getD]
      rcases hi : l[i]? with _ | x
      · simp
      · simpa using h2 x (List.mem_of_getElem? hi)
  obtain ⟨ln, pn⟩ := hfill num (by simp)
  obtain ⟨lf, pf⟩ := hfill fuse (by simp)
  obtain ⟨lw, pw⟩ := hfill wing (by simp)
  unfold countEngines
  simp only
  rw [if_neg (by omega)]
  refine ⟨_, rfl, by simp, ?_, ?_, ?_, ?_, ?_⟩
  · intro m hm
    obtain ⟨i, hi, rfl⟩ := List.mem_map.1 hm
    exact (fixMounts_consistent_iff _ (pn i) (pf i) (pw i)).2 (hok i (List.mem_range.1 hi))
  · simp only [List.drop_eq_nil_of_le (le_of_eq ln), List.drop_eq_nil_of_le (le_of_eq lf),
      List.drop_eq_nil_of_le (le_of_eq lw), List.append_nil, List.map_map]
    have : ∀ l : List ℕ, (∀ i ∈ l, i < n) →
        (l.map (Mounts.num ∘ fun i => fixMounts ⟨(num.getD (List.replicate n 0)).getD i 0,
          (fuse.getD (List.replicate n 0)).getD i 0, (wing.getD (List.replicate n 0)).getD i 0⟩)).sum
        = (l.map (Mounts.fuse ∘ fun i => fixMounts ⟨(num.getD (List.replicate n 0)).getD i 0,
          (fuse.getD (List.replicate n 0)).getD i 0, (wing.getD (List.replicate n 0)).getD i 0⟩)).sum
        + (l.map (Mounts.wing ∘ fun i => fixMounts ⟨(num.getD (List.replicate n 0)).getD i 0,
          (fuse.getD (List.replicate n 0)).getD i 0, (wing.getD (List.replicate n 0)).getD i 0⟩)).sum := by
      intro l hlt
      induction l with
      | nil => rfl
      | cons i l ih =>
        have hi := (fixMounts_consistent_iff ⟨(num.getD (List.replicate n 0)).getD i 0,
          (fuse.getD (List.replicate n 0)).getD i 0, (wing.getD (List.replicate n 0)).getD i 0⟩ (pn i) (pf i) (pw i)).2 (hok i (hlt i (by simp)))
        simp only [List.map_cons, List.sum_cons, Function.comp] at ih ⊢
        rw [hi, ih (fun j hj => hlt j (List.mem_cons_of_mem _ hj))]
        omega
    exact this _ (fun i hi => List.mem_range.1 hi)
  · simp only [List.drop_eq_nil_of_le (le_of_eq ln), List.append_nil]
  · simp only [List.drop_eq_nil_of_le (le_of_eq lw), List.append_nil]
  · simp only [List.drop_eq_nil_of_le (le_of_eq lf), List.append_nil]

example : countEngines 2 (some [2, 4]) none (some [0, 2]) = .ok ⟨[⟨2, 0, 2⟩, ⟨4, 0, 4⟩], 6, 0, 6⟩ := by decide +kernel

/-! ## C34 -/

/-- **C15 (short arrays).** Preprocessing fails, with `IndexError`, exactly when a given array has fewer entries
than there are engine models. -/
theorem countEngines_error_iff (n : ℕ) (num fuse wing : Option (List ℤ)) :
    ((∃ e, countEngines n num fuse wing = .error e) ↔
      ∃ a ∈ [num, fuse, wing], ∃ l, a = some l ∧ l.length < n) ∧
    (∀ e, countEngines n num fuse wing = .error e → e = .indexError) := by
  have len : ∀ a : Option (List ℤ), (a.getD (List.replicate n 0)).length < n ↔
      ∃ l, a = some l ∧ l.length < n := by
    intro a; cases a <;> simp
  have key : ((num.getD (List.replicate n 0)).length < n ∨ (fuse.getD (List.replicate n 0)).length < n ∨
      (wing.getD (List.replicate n 0)).length < n) ↔ ∃ a ∈ [num, fuse, wing], ∃ l, a = some l ∧ l.length < n := by
    simp only [len, List.mem_cons, List.not_mem_nil, or_false, exists_eq_or_imp, exists_eq_left]
  rw [← key]
  unfold countEngines
  simp only
  constructor
  · constructor
    · rintro ⟨e, h⟩
      split_ifs at h with hc
      exact hc
    · intro hc
      exact ⟨_, if_pos hc⟩
  · intro e h
    split_ifs at h with hc
    cases h; rfl

example : countEngines 2 (some [1]) none none = .error .indexError := rfl

/-- Which value engine `i` must get, by the documented priority: its own option, then the entry of `aviary_options`
(a scalar or a one-element array applies to every engine), then the default. -/
def engineValue {α : Type} (dflt : α) (opt : Option (SVal α)) (i : ℕ) (eng : Option (SVal α)) : α :=
  match eng, opt with
  | some (.scalar a), _ => a
  | some (.iter _), _ => dflt
  | none, none => dflt
  | none, some (.scalar a) => a
  | none, some (.iter [a]) => a
  | none, some (.iter xs) => xs.getD i dflt

/-- **C34 (partial: per-engine variables, non-empty option arrays).** For a variable with one value per engine model,
the stored vector has exactly one entry per engine model, chosen by the documented priority. -/
theorem vectorize_per_engine_partial {α : Type} (dflt : α) (opt : Option (SVal α)) (hopt : opt ≠ some (.iter []))
    (es : List (Option (SVal α))) (he : ∀ e ∈ es, ∀ xs, e ≠ some (.iter xs)) (i : ℕ) :
    vectorize dflt false opt i es = .ok (es.mapIdx (fun k e => engineValue dflt opt (i + k) e)) := by
  induction es generalizing i with
  | nil => rfl
  | cons e es ih =>
    have hp : vecPiece dflt false opt i e = .ok [engineValue dflt opt i e] := by
      rcases e with _ | (a | xs)
      · rcases opt with _ | (b | ys)
        · rfl
        · rfl
        · rcases ys with _ | ⟨y, _ | ⟨z, ys⟩⟩
          · exact absurd rfl hopt
          · rfl
          · simp [vecPiece, engineValue]
      · rfl
      · exact absurd rfl (he _ (by simp) xs)
    rw [vectorize, hp, ih (fun x hx => he x (List.mem_cons_of_mem _ hx))]
    simp only [List.mapIdx_cons, List.singleton_append, Nat.add_zero]
    congr 2
    apply List.ext_getElem <;> simp
    intro k hk
    congr 1
    omega

/-- **C34 violated (empty array).** An empty array in `aviary_options` adds nothing for the engines that rely on it, so
the value of the second engine ends up in the first engine's place. -/
theorem vectorize_empty_violated :
    vectorize (0 : ℤ) false (some (.iter [])) 0 [none, some (.scalar 7)] = .ok [7] := by rfl

/-- **C34 (array-valued variables with own values).** When every engine model carries its own array, the stored
vector is the concatenation of these arrays in engine order. -/
theorem vectorize_multi_own {α : Type} (dflt : α) (opt : Option (SVal α)) (xss : List (List α)) (i : ℕ) :
    vectorize dflt true opt i (xss.map (fun xs => some (.iter xs))) = .ok xss.flatten ∧
    (∀ xs (es : List (Option (SVal α))), vectorize dflt false opt i (some (.iter xs) :: es) = .error .valueError) := by
  refine ⟨?_, ?_⟩
  · induction xss generalizing i with
    | nil => rfl
    | cons xs xss ih => simp [vectorize, vecPiece, ih]
  · intro xs es; simp [vectorize, vecPiece]

/-- **C34 violated (arrays per engine).** For a multidimensional variable given in `aviary_options` the whole array is
appended once for every engine model without an own value. -/
theorem vectorize_multi_duplicates_violated {α : Type} (dflt : α) (xs : List α) (h : 1 < xs.length) (n : ℕ) (i : ℕ) :
    vectorize dflt true (some (.iter xs)) i (List.replicate n none) = .ok (List.replicate n xs).flatten := by
  induction n generalizing i with
  | zero => rfl
  | succ n ih =>
    simp only [List.replicate_succ, vectorize, ih]
    simp [vecPiece, h]

example : vectorize (0 : ℤ) false (some (.iter [4, 5])) 0 [none, none, some (.scalar 7)] = .ok [4, 5, 7] := by rfl

end Verif
