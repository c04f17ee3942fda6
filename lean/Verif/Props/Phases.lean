import Verif.Model.Phases
import Mathlib.Data.List.Basic
import Mathlib.Data.List.Perm.Basic

/-! # C12: splitting a mission into main and reserve phases -/

namespace Verif

/-- A phase of the reserve mission: `reserve` is given and is anything but `False`. -/
def IsReserve (t : PhaseTag) : Bool := t = .reserveOther
/-- A phase of the main mission: it has options and `reserve` is absent or `False`. -/
def IsMain (t : PhaseTag) : Bool := t = .reserveIsFalse || t = .noReserve

/-- The pair is in an allowed order. -/
def OrderOk (p q : String × PhaseTag) : Prop := ¬(IsReserve p.2 = true ∧ IsMain q.2 = true)

theorem sepFold_main (ps : List (String × PhaseTag)) : ∀ s : SepState,
    (ps.foldl sepStep s).main = s.main ++ (ps.filter (fun p => IsMain p.2)).map Prod.fst ∧
    (ps.foldl sepStep s).reserve = s.reserve ++ (ps.filter (fun p => IsReserve p.2)).map Prod.fst := by
  induction ps with
  | nil => intro s; simp
  | cons p ps ih =>
    intro s
    obtain ⟨n, t⟩ := p
    rw [List.foldl_cons, (ih _).1, (ih _).2]
    cases t <;> simp [sepStep, IsMain, IsReserve]

theorem sepFold_raise (ps : List (String × PhaseTag)) : ∀ s : SepState,
    (ps.foldl sepStep s).raise = true ↔
      s.raise = true ∨ (s.started = true ∧ ∃ q ∈ ps, IsMain q.2 = true) ∨ ¬ ps.Pairwise OrderOk := by
  induction ps with
  | nil => intro s; simp
  | cons p ps ih =>
    intro s
    obtain ⟨n, t⟩ := p
    rw [List.foldl_cons, ih, List.pairwise_cons]
    have hx : (¬ ∀ a' ∈ ps, OrderOk (n, t) a') ↔ IsReserve t = true ∧ ∃ q ∈ ps, IsMain q.2 = true := by
      constructor
      · intro h
        simp only [not_forall] at h
        obtain ⟨q, hq, h⟩ := h
        unfold OrderOk at h
        rw [not_not] at h
        exact ⟨h.1, q, hq, h.2⟩
      · rintro ⟨h, q, hq, hm⟩ hall
        exact hall q hq ⟨h, hm⟩
    rw [not_and_or, hx]
    have hm : (∃ q ∈ (n, t) :: ps, IsMain q.2 = true) ↔ (IsMain t = true ∨ ∃ q ∈ ps, IsMain q.2 = true) := by
      simp only [List.mem_cons, exists_eq_or_imp]
    rw [hm]
    generalize (∃ q ∈ ps, IsMain q.2 = true) = E
    generalize List.Pairwise OrderOk ps = P
    cases t <;> simp [sepStep, IsMain, IsReserve] <;> tauto

/-- **C12.** For every mission (any number of phases, any names): the split is rejected exactly when some main phase
comes after some reserve phase; otherwise the two lists are the main and the reserve phases in mission order. -/
theorem separatePhases_spec (ps : List (String × PhaseTag)) :
    (separatePhases ps = .error .valueError ↔
      ∃ i j : Nat, i < j ∧ ∃ p q, ps[i]? = some p ∧ ps[j]? = some q ∧ IsReserve p.2 = true ∧ IsMain q.2 = true) ∧
    (∀ m r, separatePhases ps = .ok (m, r) →
      m = (ps.filter (fun p => IsMain p.2)).map Prod.fst ∧
      r = (ps.filter (fun p => IsReserve p.2)).map Prod.fst) ∧
    (separatePhases ps = .error .valueError ∨ ∃ m r, separatePhases ps = .ok (m, r)) := by
  have hr := sepFold_raise ps ⟨[], [], false, false⟩
  have hm := sepFold_main ps ⟨[], [], false, false⟩
  simp at hr hm
  unfold separatePhases
  refine ⟨?_, ?_, ?_⟩
  · have : (¬ ps.Pairwise OrderOk) ↔
        ∃ i j : Nat, i < j ∧ ∃ p q, ps[i]? = some p ∧ ps[j]? = some q ∧ IsReserve p.2 = true ∧ IsMain q.2 = true := by
      rw [List.pairwise_iff_getElem]
      constructor
      · intro h
        simp only [not_forall] at h
        obtain ⟨i, j, hi, hj, hij, h⟩ := h
        unfold OrderOk at h
        rw [not_not] at h
        exact ⟨i, j, hij, ps[i], ps[j], List.getElem?_eq_getElem hi, List.getElem?_eq_getElem hj, h⟩
      · rintro ⟨i, j, hij, p, q, hp, hq, h⟩ hall
        obtain ⟨hi, rfl⟩ := List.getElem?_eq_some_iff.1 hp
        obtain ⟨hj, rfl⟩ := List.getElem?_eq_some_iff.1 hq
        exact hall i j hi hj hij h
    rw [← this, ← hr]
    by_cases h : (ps.foldl sepStep ⟨[], [], false, false⟩).raise = true <;> simp [h]
  · intro m r h
    by_cases hb : (ps.foldl sepStep ⟨[], [], false, false⟩).raise = true
    · simp [hb] at h
    · simp only [hb] at h
      simp only [Bool.false_eq_true, if_false, Except.ok.injEq, Prod.mk.injEq] at h
      exact ⟨h.1 ▸ hm.1, h.2 ▸ hm.2⟩
  · by_cases hb : (ps.foldl sepStep ⟨[], [], false, false⟩).raise = true
    · left; simp [hb]
    · right; simp [hb]

/-- **C12 (conservation).** On success, the main list followed by the reserve list is exactly the list of the phases
that have options, in mission order: none lost, none duplicated, none reordered. -/
theorem separatePhases_concat (ps : List (String × PhaseTag)) (m r : List String)
    (h : separatePhases ps = .ok (m, r)) :
    m ++ r = (ps.filter (fun p => p.2 ≠ .noOptions)).map Prod.fst := by
  obtain ⟨hm, hr⟩ := (separatePhases_spec ps).2.1 m r h
  have hn : ps.Pairwise OrderOk := by
    by_contra hc
    have := (sepFold_raise ps ⟨[], [], false, false⟩).2 (Or.inr (Or.inr hc))
    simp [separatePhases, this] at h
  rw [hm, hr]
  clear h hm hr
  induction ps with
  | nil => rfl
  | cons p ps ih =>
    rw [List.pairwise_cons] at hn
    obtain ⟨n, t⟩ := p
    have hi := ih hn.2
    cases t with
    | noOptions => simpa [IsMain, IsReserve] using hi
    | noReserve => simpa [IsMain, IsReserve] using hi
    | reserveIsFalse => simpa [IsMain, IsReserve] using hi
    | reserveOther =>
      have h0 : ps.filter (fun p => IsMain p.2) = [] := by
        rw [List.filter_eq_nil_iff]
        intro q hq hmq
        exact hn.1 q hq ⟨rfl, hmq⟩
      rw [h0] at hi
      have h1 : ((n, PhaseTag.reserveOther) :: ps).filter (fun p => IsMain p.2) = [] := by
        rw [List.filter_cons_of_neg (by simp [IsMain])]; exact h0
      rw [h1]
      simp only [List.map_nil, List.nil_append] at hi ⊢
      rw [List.filter_cons_of_pos (by simp [IsReserve]), List.filter_cons_of_pos (by simp), List.map_cons,
        List.map_cons, hi]

/-- **C12 violated.** A phase without `user_options` is silently left out of both lists. -/
theorem separatePhases_drops_violated :
    separatePhases [("climb", .noReserve), ("custom", .noOptions), ("hold", .reserveOther)]
      = .ok (["climb"], ["hold"]) := by
  decide +kernel

example : separatePhases [("climb", .noReserve), ("hold", .reserveOther), ("descent", .reserveIsFalse)]
    = .error .valueError := by decide +kernel

end Verif
