import Verif.Props.MissionFile
import Mathlib.Data.List.GetD

/-!
# Bounds in the files of the mission editor, and what the editor gets wrong
-/

namespace Verif.MissionEditor

/-! ## Bounds -/

/-- Every phase that is written contains its own ends: the Mach numbers and altitudes at both ends lie inside the bounds. -/
theorem file_bounds {c : Args} (h : WF c) {f q : ℚ} (hq : factor (c.units .time) = some q) (hf : factor (c.units .alt) = some f)
    (hnn : ∀ a ∈ c.alts, 0 ≤ a) {r : Info} (hr : createPhaseInfo c = .ok r) : ∀ p ∈ r.phases.map (·.2),
      (p.machBounds.1 < p.machInitial ∧ p.machInitial < p.machBounds.2) ∧
      (p.machBounds.1 < p.machFinal ∧ p.machFinal < p.machBounds.2) ∧
      (p.altBounds.1 ≤ p.altInitial ∧ p.altInitial < p.altBounds.2) ∧
      (p.altBounds.1 ≤ p.altFinal ∧ p.altFinal < p.altBounds.2) ∧ 0 ≤ p.altBounds.1 := by
  obtain ⟨r', hr', hph, -⟩ := create_spec h hq hf
  obtain rfl : r' = r := Except.ok.inj (hr'.symm.trans hr)
  rw [hph]
  intro p hp
  obtain ⟨i, hi, rfl⟩ := List.mem_map.1 hp
  have hm : (0 : ℚ) < 500 * (3048 / 10000) / f := div_pos (by norm_num) (factor_pos hf)
  generalize 500 * (3048 / 10000) / f = margin at hm
  have hd : ∀ j, 0 ≤ c.alts.getD j 0 := by
    intro j
    by_cases hj : j < c.alts.length
    · rw [List.getD_eq_getElem _ _ hj]; exact hnn _ (List.getElem_mem hj)
    · rw [List.getD_eq_default _ _ (by omega)]
  have h1 := hd i
  have h2 := hd (i + 1)
  dsimp only [phaseRec]
  generalize c.alts.getD i 0 = a at *
  generalize c.alts.getD (i + 1) 0 = b at *
  generalize c.machs.getD i 0 = m at *
  generalize c.machs.getD (i + 1) 0 = m' at *
  have k1 := min_le_left m m'
  have k2 := min_le_right m m'
  have k3 := le_max_left m m'
  have k4 := le_max_right m m'
  have k5 := min_le_left a b
  have k6 := min_le_right a b
  have k7 := le_max_left a b
  have k8 := le_max_right a b
  refine ⟨⟨?_, ?_⟩, ⟨?_, ?_⟩, ⟨max_le ?_ h1, ?_⟩, ⟨max_le ?_ h2, ?_⟩, le_max_right _ _⟩ <;> linarith

/-- Phases that follow each other meet: in Mach number, in altitude, in time, and there are as many as the points have gaps. -/
theorem file_continuous {c : Args} (h : WF c) {f q : ℚ} (hq : factor (c.units .time) = some q)
    (hf : factor (c.units .alt) = some f) {r : Info} (hr : createPhaseInfo c = .ok r) :
    r.phases.length = c.times.length - 1 ∧
    ∀ i (p p' : PhaseInfo), (r.phases.map (·.2))[i]? = some p → (r.phases.map (·.2))[i + 1]? = some p' →
      p.machFinal = p'.machInitial ∧ p.altFinal = p'.altInitial ∧ p.guess.1 + p.guess.2 = p'.guess.1 := by
  obtain ⟨r', hr', hph, -⟩ := create_spec h hq hf
  obtain rfl : r' = r := Except.ok.inj (hr'.symm.trans hr)
  refine ⟨?_, ?_⟩
  · have := congrArg List.length hph
    simpa using this
  · rw [hph]
    intro i p p' h1 h2
    rw [List.getElem?_map, Option.map_eq_some_iff] at h1 h2
    obtain ⟨j, hj, rfl⟩ := h1
    obtain ⟨k, hk, rfl⟩ := h2
    obtain ⟨_, rfl⟩ := List.getElem?_eq_some_iff.1 hj
    obtain ⟨_, rfl⟩ := List.getElem?_eq_some_iff.1 hk
    simp only [List.getElem_range]
    refine ⟨rfl, rfl, ?_⟩
    simp only [phaseRec]; ring

theorem sum_durations (l : List ℚ) : ∀ i, i < l.length → ((durations l).take i).sum = l.getD i 0 - l.getD 0 0 := by
  induction l with
  | nil => intro i h; simp at h
  | cons a l ih => cases l with
    | nil => intro i h; simp at h; subst h; simp
    | cons b l =>
      intro i h
      cases i with
      | zero => simp
      | succ j =>
        have := ih j (by simpa using h)
        simp only [durations, List.take_succ_cons, List.sum_cons, this, List.getD_cons_succ, List.getD_cons_zero]
        ring

theorem sum_le_map (l : List ℚ) (g : ℚ → ℚ) (h : ∀ x ∈ l, g x ≤ x) : (l.map g).sum ≤ l.sum := by
  induction l with
  | nil => simp
  | cons a l ih =>
    simp only [List.map_cons, List.sum_cons]
    have := h a (by simp)
    have := ih fun x hx => h x (by simp [hx])
    linarith

theorem sum_map_le (l : List ℚ) (g : ℚ → ℚ) (h : ∀ x ∈ l, x ≤ g x) : l.sum ≤ (l.map g).sum := by
  induction l with
  | nil => simp
  | cons a l ih =>
    simp only [List.map_cons, List.sum_cons]
    have := h a (by simp)
    have := ih fun x hx => h x (by simp [hx])
    linarith

/-- A duration lies inside the bounds made for it exactly if it is at least a tenth, in whatever unit. -/
theorem bounds_iff (d : ℚ) : ((createBounds d).1 ≤ d ∧ d ≤ (createBounds d).2) ↔ 1 / 10 ≤ d := by
  simp only [createBounds, max_le_iff]
  constructor
  · rintro ⟨⟨_, h⟩, _⟩; exact h
  · intro h; exact ⟨⟨by linarith, h⟩, by linarith⟩

/-- The bounds are an interval exactly if the duration is at least a fifteenth. -/
theorem bounds_nonempty_iff (d : ℚ) : (createBounds d).1 ≤ (createBounds d).2 ↔ 1 / 15 ≤ d := by
  simp only [createBounds, max_le_iff]
  constructor
  · rintro ⟨_, h⟩; linarith
  · intro h; exact ⟨by linarith, by linarith⟩

/-- **Guesses of time**: in a mission that starts at zero and whose phases last at least a tenth of the unit, start and duration
that are guessed for each phase lie inside the bounds written beside them. -/
theorem file_times {c : Args} (h : WF c) {f q : ℚ} (hq : factor (c.units .time) = some q) (hf : factor (c.units .alt) = some f)
    {r : Info} (hr : createPhaseInfo c = .ok r) (h0 : c.times.getD 0 0 = 0) (hd : ∀ d ∈ durations c.times, 1 / 10 ≤ d) :
    ∀ p ∈ r.phases.map (·.2), (p.initialBounds.1 ≤ p.guess.1 ∧ p.guess.1 ≤ p.initialBounds.2) ∧
      (p.durationBounds.1 ≤ p.guess.2 ∧ p.guess.2 ≤ p.durationBounds.2) := by
  obtain ⟨r', hr', hph, -⟩ := create_spec h hq hf
  obtain rfl : r' = r := Except.ok.inj (hr'.symm.trans hr)
  rw [hph]
  intro p hp
  obtain ⟨i, hi, rfl⟩ := List.mem_map.1 hp
  have hi' : i < c.times.length - 1 := List.mem_range.1 hi
  have hs := sum_durations c.times i (by omega)
  rw [h0, sub_zero] at hs
  have hmem : ∀ x ∈ (durations c.times).take i, 1 / 10 ≤ x := fun x hx => hd x (List.mem_of_mem_take hx)
  refine ⟨⟨?_, ?_⟩, ?_⟩
  · simp only [phaseRec]; rw [← hs]
    exact sum_le_map _ _ fun x hx => ((bounds_iff x).2 (hmem x hx)).1
  · simp only [phaseRec]; rw [← hs]
    exact sum_map_le _ _ fun x hx => ((bounds_iff x).2 (hmem x hx)).2
  · simp only [phaseRec]
    rw [bounds_iff, ← durations_getD _ _ (by omega)]
    have hl : i < (durations c.times).length := by rw [durations_length]; omega
    rw [List.getD_eq_getElem _ _ hl]
    exact hd _ (List.getElem_mem hl)

/-! ## The range -/

theorem trapz_const (M : ℚ) : ∀ (t : ℚ) (ts : List ℚ),
    trapz (t :: ts) (List.replicate (ts.length + 1) M) = M * ((t :: ts).getLast (by simp) - t)
  | t, [] => by simp [trapz]
  | t, t' :: ts => by
    have := trapz_const M t' ts
    simp only [List.length_cons, List.replicate_succ, trapz] at this ⊢
    rw [this, List.getLast_cons (List.cons_ne_nil t' ts)]
    ring

theorem trapz_nonneg : ∀ (ts ss : List ℚ), forwards ts = true → (∀ s ∈ ss, 0 ≤ s) → 0 ≤ trapz ts ss
  | [], ss, _, _ => by simp [trapz]
  | [t], ss, _, _ => by simp [trapz]
  | t :: t' :: ts, [], _, _ => by simp [trapz]
  | t :: t' :: ts, [s], _, _ => by simp [trapz]
  | t :: t' :: ts, s :: s' :: ss, h, hs => by
    simp only [forwards, Bool.and_eq_true, decide_eq_true_eq] at h
    have := trapz_nonneg (t' :: ts) (s' :: ss) h.2 (fun x hx => hs x (by simp [hx]))
    have a := hs s (by simp)
    have b := hs s' (by simp)
    have : 0 ≤ (t' - t) * (s + s') / 2 := by
      apply div_nonneg (mul_nonneg (by linarith) (by linarith)) (by norm_num)
    simp only [trapz]; linarith

/-- The greater the Mach numbers the greater the range. -/
theorem trapz_mono : ∀ (ts ss us : List ℚ), forwards ts = true → List.Forall₂ (· ≤ ·) ss us → trapz ts ss ≤ trapz ts us
  | [], ss, us, _, _ => by simp [trapz]
  | [t], ss, us, _, _ => by simp [trapz]
  | t :: t' :: ts, _, _, _, .nil => by simp [trapz]
  | t :: t' :: ts, _, _, _, .cons _ .nil => by simp [trapz]
  | t :: t' :: ts, s :: s' :: ss, u :: u' :: us, h, .cons h1 (.cons h2 h3) => by
    simp only [forwards, Bool.and_eq_true, decide_eq_true_eq] at h
    have := trapz_mono (t' :: ts) (s' :: ss) (u' :: us) h.2 (.cons h2 h3)
    have : (t' - t) * (s + s') / 2 ≤ (t' - t) * (u + u') / 2 := by
      have := mul_le_mul_of_nonneg_left (show s + s' ≤ u + u' by linarith) (show 0 ≤ t' - t by linarith)
      linarith
    simp only [trapz]; linarith

/-- **Range at constant Mach number**: 343 metres a second times the Mach number times the time flown, to hundredths. -/
theorem range_const (M t : ℚ) (ts : List ℚ) (units : Axis → String) {q g : ℚ} (hq : factor (units .time) = some q)
    (hg : factor (rangeUnit (units .alt)) = some g) :
    estimateRange (t :: ts) (List.replicate (ts.length + 1) M) units =
      .ok ((halfEven (343 * M * (((t :: ts).getLast (by simp) - t) * q) / g * 100) : ℚ) / 100, rangeUnit (units .alt)) := by
  unfold estimateRange
  rw [convertAll_ok _ hq (show factor "s" = some 1 from rfl)]
  simp only [bind, Except.bind]
  rw [if_neg (by simp), List.map_replicate, List.map_cons]
  have := trapz_const (M * 343) (t * q / 1) (ts.map fun x => x * q / 1)
  rw [List.length_map] at this
  rw [this]
  unfold convert
  rw [hg]
  have hl : ((t * q / 1) :: ts.map fun x => x * q / 1).getLast (by simp) = (t :: ts).getLast (by simp) * q / 1 := by
    have := List.getLast_map (f := fun x => x * q / 1) (l := t :: ts) (by simp)
    simpa using this
  rw [hl]
  simp only [factor, pure, Except.pure]
  congr 5
  ring

/-! ## What goes wrong -/

/-- Deleting the first point keeps the order of its phase: the orders are one too many, and the phases that remain take over the
orders of the phases before them. -/
theorem delete_first {e : Editor} (h : Inv e) (hn : 2 ≤ e.n) : ∃ e', deletePoint e 0 = (e', none) ∧ e'.n = e.n - 1 ∧
    e'.orders = e.orders ∧ e'.orders.length = e'.n := by
  unfold deletePoint
  rw [if_neg (by omega)]
  have hb : ¬ (0 < e.n ∧ 0 < 0) := by omega
  simp only [if_neg hb]
  have l1 := h.alt
  have l2 := h.mach
  have l3 : (e.data .time).length = e.n := rfl
  rw [if_pos (by omega)]
  rw [redraw_ok (by simp [Editor.n, h.alt]) (by simp [Editor.n, h.mach])]
  simp only [Res.andThen]
  rw [updateTable_all _ (by simpa [h.rows] using (by omega : 0 < e.n)) (by simp [Editor.n, h.alt])
    (by simp [Editor.n, h.mach]) (by simp)]
  have hn' : (e.data .time).length = e.n := rfl
  refine ⟨_, rfl, ?_, rfl, ?_⟩
  · simp only [Editor.n, List.length_eraseIdx]; rw [if_pos (by omega)]
  · simp only [Editor.n, List.length_eraseIdx, h.orders]; rw [if_pos (by omega)]

/-- Two phases of orders 5 and 3; the first point is deleted; the phase that remains is saved with order 5. -/
theorem delete_first_violated : ¬ ∀ evs : List Event, ∀ e', session {} evs = e' →
    e'.orders.length = e'.n - 1 := by
  intro h
  have := h [.addRow, .addRow, .order 0 5, .delete 0] _ rfl
  revert this
  decide +kernel

example : (saveArgs (session {} [.addRow, .addRow, .order 0 5])).orders = [5, 3] ∧
    (saveArgs (session {} [.addRow, .addRow, .order 0 5, .delete 0])).orders = [5, 3] ∧
    (saveArgs (session {} [.addRow, .addRow, .order 0 5, .delete 0])).numSegments = 1 := by decide +kernel

/-- A click at an earlier time than the last point adds no point, but repeats the last row of the table. -/
theorem click_early {e : Editor} (h : Inv e) (hn : 2 ≤ e.n) (plot : Axis) {x y t : ℚ} (hx : x ≠ 0) (hy : y ≠ 0)
    (ht : t ∈ e.data .time) (hlt : x ≤ t) :
    click e plot x y = ({ e with
      rows := e.n + 1
      altFlags := if e.showOpt then e.altFlags ++ [false] else e.altFlags
      machFlags := if e.showOpt then e.machFlags ++ [false] else e.machFlags }, none) := by
  unfold click
  rw [if_neg (by simp [hx, hy])]
  have hall : (e.data .time).all (· < x) = false := by
    rw [List.all_eq_false]; exact ⟨t, ht, by simpa using hlt⟩
  rw [hall]
  simp only [Bool.false_eq_true, if_false, Res.andThen]
  rw [redraw_ok h.alt h.mach]
  dsimp only
  rw [updateTable_last (by omega) h.alt h.mach, h.rows]
  cases hso : e.showOpt <;> simp [show 1 < e.n by omega]

/-- So the boxes no longer fit the phases, and saving forgets all that are ticked. -/
theorem click_early_violated {e : Editor} (h : Inv e) (hn : 2 ≤ e.n) (hso : e.showOpt = true) (plot : Axis) {x y t : ℚ}
    (hx : x ≠ 0) (hy : y ≠ 0) (ht : t ∈ e.data .time) (hlt : x ≤ t) :
    (saveArgs (click e plot x y).1).altFlags = List.replicate (e.n - 1) false ∧
      (saveArgs (click e plot x y).1).machFlags = List.replicate (e.n - 1) false ∧
      (click e plot x y).1.data = e.data := by
  rw [click_early h hn plot hx hy ht hlt]
  have hl : e.altFlags.length = e.n - 1 := by rw [h.altF, hso]; rfl
  simp only [saveArgs, hso, if_true]
  refine ⟨?_, ?_, trivial⟩ <;> (rw [if_pos]; simp only [List.length_append, hl, List.length_singleton, Editor.n]; omega)

/-- A mission whose first box is ticked. -/
def ticked : Editor := session {} [.addRow, .addRow, .toggle true, .tick 0 .mach true]

example : (saveArgs ticked).machFlags = [true, false] ∧ (saveArgs (click ticked .alt 1 1).1).machFlags = [false, false] := by
  decide +kernel

/-- Deleting a point unticks all boxes, also those of phases that stay. -/
theorem delete_unticks {e : Editor} (h : Inv e) {r : ℕ} (h0 : 0 < r) (hr : r < e.n) :
    (∀ b ∈ (deletePoint e r).1.altFlags, b = false) ∧ ∀ b ∈ (deletePoint e r).1.machFlags, b = false := by
  rw [delete_spec h h0 hr]
  constructor <;> intro b hb <;> (dsimp only at hb; split_ifs at hb <;> simp_all)

example : ticked.machFlags = [true, false] ∧ (deletePoint ticked 2).1.machFlags = [false] := by decide +kernel

/-- Hiding the boxes and showing them again unticks them all. -/
theorem toggle_unticks : (session ticked [.toggle false, .toggle true]).machFlags = [false, false] ∧
    ticked.machFlags = [true, false] := by decide +kernel

/-- If all points have been deleted, opening a file draws only its last row: a mission with ticked boxes is saved again with none. -/
theorem open_empty_violated : (createPhaseInfo (saveArgs ticked)).toOption.map (fun r =>
      ((openInfo (session {} [.delete 0]) r).1.rows, (openInfo (session {} [.delete 0]) r).1.n,
        (saveArgs (openInfo (session {} [.delete 0]) r).1).machFlags, (saveArgs (openInfo {} r).1).machFlags)) =
    some (1, 3, [false, false], [true, false]) := by
  decide +kernel

/-- A number that `update_list` rejects is dropped alone: a negative limit of the altitude gives points without altitude. -/
theorem negative_limit_violated : ¬ ∀ evs : List Event, (∀ ev ∈ evs, ∀ r, ev ≠ .delete r) →
    ((session {} evs).data .alt).length = (session {} evs).n := by
  intro h
  have := h [.limit .alt (-1), .addRow] (by simp)
  revert this
  decide +kernel

/-- The bounds of the first start are zero, so that a mission which starts later is written with a guess outside of them. -/
theorem first_start {c : Args} (h : WF c) {f q : ℚ} (hq : factor (c.units .time) = some q) (hf : factor (c.units .alt) = some f)
    {r : Info} (hr : createPhaseInfo c = .ok r) {p : PhaseInfo} (hp : (r.phases.map (·.2))[0]? = some p) :
    p.initialBounds = (0, 0) ∧ p.guess.1 = c.times.getD 0 0 := by
  obtain ⟨r', hr', hph, -⟩ := create_spec h hq hf
  obtain rfl : r' = r := Except.ok.inj (hr'.symm.trans hr)
  rw [hph, List.getElem?_map, Option.map_eq_some_iff] at hp
  obtain ⟨j, hj, rfl⟩ := hp
  obtain ⟨_, rfl⟩ := List.getElem?_eq_some_iff.1 hj
  simp [phaseRec]

/-- A phase of three minutes in a mission counted in hours has the duration bounds 0.1 to 0.075. -/
theorem hours_violated : ¬ ∀ c : Args, WF c → forwards c.times = true → ∀ r, createPhaseInfo c = .ok r →
    ∀ p ∈ r.phases.map (·.2), p.durationBounds.1 ≤ p.durationBounds.2 := by
  intro h
  have := h { times := [0, 1 / 20], alts := [0, 100], machs := [1 / 2, 1 / 2], poly := 1, numSegments := 1, machFlags := [false]
              altFlags := [false], opts := {}, orders := [3]
              units := fun | .time => "h" | .alt => "ft" | .mach => "unitless" } ⟨rfl, rfl, rfl, rfl, rfl, rfl⟩ (by decide +kernel) _ rfl
  revert this
  decide +kernel

/-- Changing units leaves one significant digit where the limit has three digits or more: 35000 ft become 10000 m in the file. -/
theorem units_violated : ∃ e : Editor, Inv e ∧ e.data .alt = [0, 35000] ∧
    (saveArgs (applyUnits e (fun | .time => "min" | .alt => "m" | .mach => "unitless")).1).alts = [0, 10000] ∧
    (applyUnits e (fun | .time => "min" | .alt => "m" | .mach => "unitless")).1.data .alt = [0, 10668] := by
  refine ⟨session {} [.addRow, .edit 1 .alt (some 35000)], ?_, ?_, ?_, ?_⟩
  · refine session_inv _ inv_start ⟨?_, ?_, trivial⟩
    · intro a; cases a <;> simp
    · show 1 < _; decide +kernel
  · decide +kernel
  · decide +kernel
  · decide +kernel

/-- "Cancel" in the advanced options restores the options but sets the orders of all phases to three. -/
theorem cancel_orders {e : Editor} (h : Inv e) (old : Options) : Inv (resetAdvanced e old) ∧ (resetAdvanced e old).opts = old ∧
    ∀ o ∈ (resetAdvanced e old).orders, o = 3 := by
  refine ⟨⟨h.alt, h.mach, ?_, h.rows, h.altF, h.machF, h.nonneg⟩, rfl, ?_⟩
  · simp [resetAdvanced, Editor.n]
  · intro o ho; exact (List.mem_replicate.1 ho).2

theorem cancel_violated : ¬ ∀ e : Editor, Inv e → (resetAdvanced e e.opts).orders = e.orders := by
  intro h
  have := h (session {} [.addRow, .order 0 7]) (session_inv _ inv_start ⟨by intro a; cases a <;> simp, trivial, trivial⟩)
  revert this
  decide +kernel

/-- A mission of one point is saved, and cannot be opened. -/
theorem one_point_violated {e : Editor} (h : Inv e) (hn : e.n = 1) {f q : ℚ} (hq : factor (e.units .time) = some q)
    (hf : factor (e.units .alt) = some f) (e0 : Editor) :
    ∃ r, save e true = .ok (some r) ∧ openInfo e0 r = (e0, some .unboundLocal) := by
  obtain ⟨r, hr, hs⟩ := save_spec h (by omega) hq hf true
  obtain ⟨r', hr', hph, -⟩ := create_spec (saveArgs_wf h) hq hf
  obtain rfl : r' = r := Except.ok.inj (hr'.symm.trans hr)
  have hl : (saveArgs e).phases = 0 := by simp [saveArgs, Args.phases]; simp [Editor.n] at hn; omega
  have hfw : forwards (e.data .time) = true := by
    have : (e.data .time).length = 1 := hn
    match ht : e.data .time, this with
    | [a], _ => rfl
  refine ⟨r', by rw [hs, if_pos ⟨hfw, fun _ => rfl⟩], ?_⟩
  rw [hl] at hph
  have : r'.phases = [] := by simpa using hph
  unfold openInfo
  rw [this]

/-- A mission of no points raises when it is saved. -/
theorem no_point_violated : save (session {} [.delete 0]) true = .error .valueError := by rfl

/-! ### Files of other origin -/

theorem loadPhases_rest (ps : List PhaseInfo) : ∀ (s : Loading) (idx : ℕ), idx + 1 + ps.length ≤ (s.data .time).length →
    ∃ s', loadPhases s idx ps = .ok s' ∧ (s'.data .time).length = (s.data .time).length ∧
      (s'.data .time).drop (idx + 1 + ps.length) = (s.data .time).drop (idx + 1 + ps.length) := by
  induction ps with
  | nil => intro s idx _; exact ⟨s, rfl, rfl, rfl⟩
  | cons p ps ih =>
    intro s idx h
    simp only [List.length_cons] at h ⊢
    have hl : loadPhase s idx p = .ok (loaded s idx p) := if_pos (by omega)
    rw [loadPhases, hl]
    simp only [bind, Except.bind]
    obtain ⟨s', h1, h2, h3⟩ := ih (loaded s idx p) (idx + 1) (by simp [loaded]; omega)
    refine ⟨s', h1, by rw [h2]; simp [loaded], ?_⟩
    rw [show idx + 1 + (ps.length + 1) = idx + 1 + 1 + ps.length by omega, h3]
    simp only [loaded]
    rw [List.drop_set_of_lt (by omega)]

theorem loadPhases_long (ps : List PhaseInfo) : ∀ (s : Loading) (idx : ℕ), (s.data .time).length < idx + 1 + ps.length →
    ps ≠ [] → loadPhases s idx ps = .error .indexError := by
  induction ps with
  | nil => intro s idx _ h; exact absurd rfl h
  | cons p ps ih =>
    intro s idx h _
    simp only [List.length_cons] at h
    rw [loadPhases]
    unfold loadPhase
    split_ifs with hi
    · simp only [bind, Except.bind]
      exact ih _ _ (by simp [loaded]; omega) (by rintro rfl; simp at h; omega)
    · rfl

/-- A file with more phases than its first phase has segments cannot be opened. -/
theorem open_long {e : Editor} {f : Info} {k : Kind × ℕ} {p : PhaseInfo} {rest : List ((Kind × ℕ) × PhaseInfo)}
    (hf : f.phases = (k, p) :: rest) (hlen : p.numSegments < f.phases.length) : openInfo e f = (e, some .indexError) := by
  unfold openInfo
  rw [hf]
  dsimp only
  rw [loadPhases_long _ _ _ (by rw [hf] at hlen; simp [startLoading] at hlen ⊢; omega) (by simp)]

theorem forwards_le_last : ∀ (l : List ℚ) (h : l ≠ []), forwards l = true → ∀ x ∈ l, x ≤ l.getLast h
  | [a], _, _, x, hx => by simp at hx; simp [hx]
  | a :: b :: l, _, hf, x, hx => by
    simp only [forwards, Bool.and_eq_true, decide_eq_true_eq] at hf
    have ih := forwards_le_last (b :: l) (by simp) hf.2
    rw [List.getLast_cons (by simp)]
    rcases List.mem_cons.1 hx with rfl | hx
    · exact hf.1.trans (ih b (by simp))
    · exact ih x hx

/-- A file with fewer phases than its first phase has segments is filled up with points at time zero, so that a mission in which
time passes cannot be saved after it was opened. -/
theorem open_short {e : Editor} {f : Info} {k : Kind × ℕ} {p : PhaseInfo} {rest : List ((Kind × ℕ) × PhaseInfo)}
    (hf : f.phases = (k, p) :: rest) (hlen : f.phases.length < p.numSegments) (answer : Bool) :
    ((openInfo e f).1.data .time).getLast? = some 0 ∧ (openInfo e f).1.n = p.numSegments + 1 ∧
      ((∃ t ∈ (openInfo e f).1.data .time, 0 < t) → save (openInfo e f).1 answer = .ok none) := by
  have hl : f.phases.length = rest.length + 1 := by rw [hf]; rfl
  obtain ⟨s', h1, h2, h3⟩ := loadPhases_rest (f.phases.map (·.2)) (startLoading e.opts p) 0
    (by simp [startLoading]; omega)
  have hlast : (s'.data .time).getLast? = some 0 := by
    have hne : (s'.data .time).drop (0 + 1 + (f.phases.map (·.2)).length) ≠ [] := by
      intro h0; have := congrArg List.length h0
      simp [h2, startLoading] at this; omega
    have e1 : (s'.data .time).getLast? = ((s'.data .time).drop (0 + 1 + (f.phases.map (·.2)).length)).getLast? := by
      rw [List.getLast?_drop, if_neg]
      intro hh; exact hne (List.drop_eq_nil_of_le hh)
    rw [e1, h3]
    simp only [startLoading, List.length_map, Nat.zero_add, Nat.add_comm 1, List.drop_succ_cons, List.drop_replicate]
    rw [List.getLast?_replicate, if_neg (by omega)]
  have hdata : ∀ (x : Editor) (o : Bool) (fl), (updateTable x o fl).1.data = x.data := by
    have key : ∀ (fl : Option (List Bool × List Bool)) (todo row : ℕ) (x : Editor), (addRows x fl todo row).1.data = x.data := by
      intro fl todo
      induction todo with
      | zero => intro row x; rfl
      | succ n ih =>
        intro row x
        unfold addRows
        split_ifs
        · rfl
        dsimp only
        split_ifs
        · exact ih _ _
        · split
          · exact ih _ _
          · split
            · exact ih _ _
            · rfl
    intro x o fl
    unfold updateTable
    split_ifs
    · exact key _ _ _ _
    · rfl
    · exact key _ _ _ _
  have hopen : (openInfo e f).1.data .time = s'.data .time := by
    unfold openInfo
    rw [hf]
    dsimp only
    rw [hf] at h1
    rw [h1]
    dsimp only
    unfold redraw
    split_ifs
    · simp only [Res.andThen]; rw [hdata]
    · rfl
  refine ⟨by rw [hopen, hlast], by rw [Editor.n, hopen, h2]; simp [startLoading], ?_⟩
  rintro ⟨t, ht, hpos⟩
  unfold save
  rw [if_pos]
  rw [hopen] at ht ⊢
  by_contra hc
  rw [Bool.not_eq_false] at hc
  have hne : s'.data .time ≠ [] := List.ne_nil_of_mem ht
  have := forwards_le_last _ hne hc t ht
  rw [List.getLast?_eq_getLast_of_ne_nil hne] at hlast
  rw [Option.some.inj hlast] at this
  linarith

/-! ## The hypotheses are met -/

/-- A climb, a cruise and a descent, edited in a session. -/
def demo : Editor := session {} [.addRow, .addRow, .addRow, .edit 1 .time (some 30), .edit 2 .time (some 120), .edit 3 .time (some 150),
  .edit 1 .alt (some 32000), .edit 2 .alt (some 32000), .edit 3 .alt (some 500), .edit 1 .mach (some (7 / 10)),
  .edit 2 .mach (some (7 / 10)), .edit 3 .mach (some (3 / 10)), .toggle true, .tick 1 .alt true, .order 2 4]

theorem demo_inv : Inv demo := by
  refine session_inv _ inv_start ?_
  refine ⟨?_, ?_, ?_, ?_, ?_, ?_, ?_, ?_, ?_, ?_, ?_, ?_, trivial, trivial, trivial, trivial⟩
  · intro a; cases a <;> simp
  · intro a; cases a <;> decide +kernel
  · intro a; cases a <;> decide +kernel
  all_goals (show _ < _; decide +kernel)

example : (save demo true).toOption.map (Option.map fun r => (r.phases.keys, r.targetRange)) =
    some (some ([(.climb, 1), (.cruise, 1), (.descent, 1)], (25836 / 25, "nmi"))) := by
  decide +kernel

example : (save demo true).toOption.map (Option.map fun r => (r.phases.map (·.2.order), r.phases.map (·.2.altOptimize),
      r.phases.map (·.2.initialBounds))) =
    some (some ([3, 3, 4], [false, true, false], [(0, 0), (15, 45), (60, 180)])) := by
  decide +kernel

example : ∃ r, save demo true = .ok (some r) ∧ openInfo {} r = (opened {} (saveArgs demo), none) := by
  obtain ⟨r, hr, hs⟩ := save_spec demo_inv (f := 3048 / 10000) (q := 60) (by decide +kernel) (by decide +kernel) (by decide +kernel) true
  exact ⟨r, by rw [hs, if_pos ⟨by decide +kernel, fun _ => rfl⟩],
    open_create (saveArgs_wf demo_inv) (by decide +kernel) hr (q := 60) (f := 3048 / 10000) (by decide +kernel) (by decide +kernel)
      (by decide +kernel)⟩

/-- A file of as many phases as are given, each with `n` segments. -/
def foreign (n k : ℕ) : Info where
  takeoff := false
  landing := false
  constrainRange := true
  targetRange := (0, "nmi")
  phases := (List.range k).map fun i => ((Kind.climb, i), { phaseRec (saveArgs demo) 0 i with numSegments := n })

example : openInfo {} (foreign 1 3) = ({}, some .indexError) := open_long rfl (by decide)

example : (openInfo {} (foreign 5 3)).1.data .time = [0, 30, 120, 150, 0, 0] ∧ save (openInfo {} (foreign 5 3)).1 true = .ok none := by
  have h : (openInfo {} (foreign 5 3)).1.data .time = [0, 30, 120, 150, 0, 0] := by decide +kernel
  exact ⟨h, (open_short rfl (by decide) true).2.2 ⟨30, by rw [h]; simp, by norm_num⟩⟩

end Verif.MissionEditor
