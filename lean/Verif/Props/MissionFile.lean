import Verif.Props.MissionEditor

/-!
# Files of the mission editor

What `create_phase_info` writes, and that opening a saved mission gives it back.
-/

namespace Verif.MissionEditor

/-- Arguments that belong together. -/
structure WF (c : Args) : Prop where
  alts : c.alts.length = c.times.length
  machs : c.machs.length = c.times.length
  machFlags : c.machFlags.length = c.times.length - 1
  altFlags : c.altFlags.length = c.times.length - 1
  orders : c.orders.length = c.times.length - 1
  segments : c.numSegments = c.times.length - 1

theorem nth_ok {α : Type} {l : List α} {i : ℕ} {d : α} (h : i < l.length) : nth l i = .ok (l.getD i d) := by
  simp [nth, List.getD, List.getElem?_eq_getElem h]

theorem durations_length (l : List ℚ) : (durations l).length = l.length - 1 := by
  induction l with
  | nil => rfl
  | cons a l ih => cases l with
    | nil => rfl
    | cons b l => simp [durations, ih]

theorem durations_getD (l : List ℚ) : ∀ i, i + 1 < l.length → (durations l).getD i 0 = l.getD (i + 1) 0 - l.getD i 0 := by
  induction l with
  | nil => intro i h; simp at h
  | cons a l ih => cases l with
    | nil => intro i h; simp at h
    | cons b l =>
      intro i h
      cases i with
      | zero => simp [durations]
      | succ j => simpa [durations] using ih j (by simpa using h)

theorem cumulative_length (l : List (ℚ × ℚ)) : ∀ acc, (cumulative acc l).length = l.length := by
  induction l with
  | nil => intro acc; rfl
  | cons d l ih => intro acc; simp [cumulative, ih]

theorem cumulative_getD (l : List (ℚ × ℚ)) : ∀ acc i, i < l.length → (cumulative acc l).getD i (0, 0) =
    (acc.1 + ((l.take i).map (·.1)).sum, acc.2 + ((l.take i).map (·.2)).sum) := by
  induction l with
  | nil => intro acc i h; simp at h
  | cons d l ih =>
    intro acc i h
    cases i with
    | zero => simp [cumulative]
    | succ j =>
      simp only [cumulative, List.getD_cons_succ]
      rw [ih _ j (by simpa using h)]
      simp [add_assoc]

/-- What is written for phase `i`: the `i`-th order and boxes, the numbers of points `i` and `i + 1`. -/
def phaseRec (c : Args) (margin : ℚ) (i : ℕ) : PhaseInfo where
  numSegments := c.numSegments
  order := c.orders.getD i 0
  machOptimize := c.machFlags.getD i false
  polyOrder := c.poly
  machInitial := c.machs.getD i 0
  machFinal := c.machs.getD (i + 1) 0
  machBounds := (min (c.machs.getD i 0) (c.machs.getD (i + 1) 0) - 1 / 50, max (c.machs.getD i 0) (c.machs.getD (i + 1) 0) + 1 / 50)
  altOptimize := c.altFlags.getD i false
  altInitial := c.alts.getD i 0
  altFinal := c.alts.getD (i + 1) 0
  altBounds := (max (min (c.alts.getD i 0) (c.alts.getD (i + 1) 0) - margin) 0,
    max (c.alts.getD i 0) (c.alts.getD (i + 1) 0) + margin)
  pathThrottle := i = c.phases - 1 || i = 0
  initialBounds := ((((durations c.times).take i).map fun d => (createBounds d).1).sum,
    (((durations c.times).take i).map fun d => (createBounds d).2).sum)
  durationBounds := createBounds (c.times.getD (i + 1) 0 - c.times.getD i 0)
  guess := (c.times.getD i 0, c.times.getD (i + 1) 0 - c.times.getD i 0)
  timeUnit := c.units .time
  altUnit := c.units .alt
  machUnit := c.units .mach
  solve := c.opts.solve

theorem phaseAt_ok {c : Args} (h : WF c) (margin : ℚ) {i : ℕ} (hi : i < c.phases) :
    phaseAt c margin i = .ok (phaseRec c margin i) := by
  have hi' : i < c.times.length - 1 := hi
  have hl := durations_length c.times
  unfold phaseAt
  rw [nth_ok (d := 0) (l := c.alts) (by rw [h.alts]; omega), nth_ok (d := 0) (l := c.alts) (i := i + 1) (by rw [h.alts]; omega),
    nth_ok (d := 0) (l := c.orders) (by rw [h.orders]; omega), nth_ok (d := false) (l := c.machFlags) (by rw [h.machFlags]; omega),
    nth_ok (d := 0) (l := c.machs) (by rw [h.machs]; omega), nth_ok (d := 0) (l := c.machs) (i := i + 1) (by rw [h.machs]; omega),
    nth_ok (d := false) (l := c.altFlags) (by rw [h.altFlags]; omega),
    nth_ok (d := ((0 : ℚ), (0 : ℚ))) (l := cumulative _ _) (by rw [cumulative_length, List.length_map, hl]; omega),
    nth_ok (d := createBounds 0) (l := (durations c.times).map createBounds) (by rw [List.length_map, hl]; omega),
    nth_ok (d := 0) (l := c.times) (by omega), nth_ok (d := 0) (l := c.times) (i := i + 1) (by omega)]
  simp only [bind, Except.bind, pure, Except.pure]
  rw [cumulative_getD _ _ _ (by rw [List.length_map, hl]; omega), ← List.map_take]
  have e : ((durations c.times).map createBounds).getD i (createBounds 0) = createBounds ((durations c.times).getD i 0) := by
    rw [List.getD_eq_getElem?_getD, List.getD_eq_getElem?_getD, List.getElem?_map]
    cases (durations c.times)[i]? <;> rfl
  rw [e, durations_getD _ _ (by omega)]
  simp [phaseRec, List.map_map, Function.comp_def]

/-- Numbers given to the phases, each kind counted from `count`. -/
def number : (Kind → ℕ) → List Kind → List (Kind × ℕ)
  | _, [] => []
  | count, k :: ks => (k, count k) :: number (fun x => if x = k then count x + 1 else count x) ks

theorem number_mem (ks : List Kind) : ∀ (count : Kind → ℕ) (k : Kind) (n : ℕ), (k, n) ∈ number count ks → count k ≤ n := by
  induction ks with
  | nil => intro c k n h; simp [number] at h
  | cons a ks ih =>
    intro c k n h
    rcases List.mem_cons.1 h with h | h
    · cases h; exact le_rfl
    · have := ih _ k n h
      split_ifs at this with hk <;> omega

theorem number_nodup (ks : List Kind) : ∀ (count : Kind → ℕ), (number count ks).Nodup := by
  induction ks with
  | nil => intro c; simp [number]
  | cons a ks ih =>
    intro c
    rw [number, List.nodup_cons]
    refine ⟨fun h => ?_, ih _⟩
    have := number_mem _ _ _ _ h
    simp at this

theorem number_length (ks : List Kind) : ∀ (count : Kind → ℕ), (number count ks).length = ks.length := by
  induction ks with
  | nil => intro c; rfl
  | cons a ks ih => intro c; simp [number, ih]

/-- **Names**: the number of a phase is one more than the number of earlier phases of its kind. -/
theorem number_spec (ks : List Kind) : ∀ (count : Kind → ℕ) (i : ℕ) (k : Kind), ks[i]? = some k →
    (number count ks)[i]? = some (k, count k + (ks.take i).count k) := by
  induction ks with
  | nil => intro c i k h; simp at h
  | cons a ks ih =>
    intro c i k h
    cases i with
    | zero => simp at h; subst h; simp [number]
    | succ j =>
      simp only [List.getElem?_cons_succ] at h
      simp only [number, List.getElem?_cons_succ, List.take_succ_cons, List.count_cons]
      rw [ih _ j k h]
      by_cases hk : k = a
      · subst hk; simp; omega
      · simp [hk, Ne.symm hk]

/-- The kinds of the phases from `i` on. -/
def kinds (c : Args) (i todo : ℕ) : List Kind :=
  (List.range' i todo).map fun j => kindOf (c.alts.getD j 0) (c.alts.getD (j + 1) 0)

theorem set_append {κ α : Type} [DecidableEq κ] (d : Dict κ α) (k : κ) (v : α) (h : k ∉ d.keys) : d.set k v = d ++ [(k, v)] := by
  induction d with
  | nil => rfl
  | cons p d ih =>
    obtain ⟨k', v'⟩ := p
    simp only [Dict.keys, List.map_cons, List.mem_cons, not_or] at h
    simp only [Dict.set, if_neg (Ne.symm h.1), List.cons_append]
    rw [ih (by simpa [Dict.keys] using h.2)]

theorem phaseLoop_ok {c : Args} (h : WF c) (margin : ℚ) (todo : ℕ) : ∀ (i : ℕ) (count : Kind → ℕ)
    (d : Dict (Kind × ℕ) PhaseInfo), i + todo = c.phases → (∀ k ∈ d.keys, k.2 < count k.1) →
    phaseLoop c margin todo i count d =
      .ok (d ++ (number count (kinds c i todo)).zip ((List.range' i todo).map (phaseRec c margin))) := by
  induction todo with
  | zero => intro i count d _ _; simp [phaseLoop, kinds, number]
  | succ k ih =>
    intro i count d hi hd
    have hph : c.phases = c.times.length - 1 := rfl
    rw [phaseLoop, nth_ok (d := 0) (l := c.alts) (by rw [h.alts]; omega),
      nth_ok (d := 0) (l := c.alts) (i := i + 1) (by rw [h.alts]; omega), phaseAt_ok h margin (by omega)]
    simp only [bind, Except.bind]
    set K := kindOf (c.alts.getD i 0) (c.alts.getD (i + 1) 0) with hK
    have hnew : (K, count K) ∉ d.keys := fun hm => by have := hd _ hm; simp at this
    rw [set_append _ _ _ hnew, ih (i + 1) _ _ (by omega)]
    · simp only [kinds, List.range'_succ, List.map_cons, number, List.zip_cons_cons, List.append_assoc, List.singleton_append, hK]
    · intro q hq
      simp only [Dict.keys, List.map_append, List.map_cons, List.map_nil, List.mem_append, List.mem_singleton] at hq
      rcases hq with hq | hq
      · have := hd q hq
        split_ifs <;> omega
      · subst hq; simp

/-- What `create_phase_info` returns: one phase for each pair of neighbouring points, in their order, under names that are
all different. -/
theorem create_spec {c : Args} (h : WF c) {f q : ℚ} (hq : factor (c.units .time) = some q) (hf : factor (c.units .alt) = some f)
    : ∃ r, createPhaseInfo c = .ok r ∧
      r.phases.map (·.2) = (List.range c.phases).map (phaseRec c (500 * (3048 / 10000) / f)) ∧
      r.phases.keys = number (fun _ => 1) (kinds c 0 c.phases) ∧
      r.phases.keys.Nodup ∧ r.takeoff = c.opts.takeoff ∧ r.landing = c.opts.landing ∧
      r.constrainRange = c.opts.constrainRange ∧
      estimateRange c.times c.machs c.units = .ok r.targetRange := by
  have hm : convert 500 "ft" (c.units .alt) = .ok (500 * (3048 / 10000) / f) := by
    unfold convert; rw [hf]; rfl
  have hr : ∃ x, estimateRange c.times c.machs c.units = .ok x := by
    unfold estimateRange
    rw [convertAll_ok _ hq rfl]
    simp only [bind, Except.bind]
    rw [if_neg (by rw [h.machs]; simp)]
    have hu : ∃ g, factor (rangeUnit (c.units .alt)) = some g := by
      unfold rangeUnit
      split_ifs
      · exact ⟨_, rfl⟩
      · exact ⟨_, rfl⟩
      · exact ⟨f, hf⟩
    obtain ⟨g, hg⟩ := hu
    unfold convert
    rw [hg]
    exact ⟨_, rfl⟩
  obtain ⟨x, hx⟩ := hr
  have hloop := phaseLoop_ok h (500 * (3048 / 10000) / f) c.phases 0 (fun _ => 1) [] (by omega) (by simp [Dict.keys])
  refine ⟨{ takeoff := c.opts.takeoff, landing := c.opts.landing, constrainRange := c.opts.constrainRange, targetRange := x,
            phases := [] ++ (number (fun _ => 1) (kinds c 0 c.phases)).zip
              ((List.range' 0 c.phases).map (phaseRec c (500 * (3048 / 10000) / f))) }, ?_, ?_⟩
  · unfold createPhaseInfo
    rw [hm, hx]
    simp only [bind, Except.bind]
    rw [hloop]
    rfl
  · have hlen : (number (fun _ => 1) (kinds c 0 c.phases)).length =
        ((List.range' 0 c.phases).map (phaseRec c (500 * (3048 / 10000) / f))).length := by
      rw [number_length]; simp [kinds]
    have hk : ∀ z : List PhaseInfo, Dict.keys ([] ++ (number (fun _ => 1) (kinds c 0 c.phases)).zip z) =
        ((number (fun _ => 1) (kinds c 0 c.phases)).zip z).map Prod.fst := fun _ => rfl
    refine ⟨?_, ?_, ?_, rfl, rfl, rfl, hx⟩
    · dsimp only
      rw [List.nil_append, ← List.range_eq_range']
      exact List.map_snd_zip (by rw [← List.range_eq_range'] at hlen; exact hlen.ge)
    · rw [hk]; exact List.map_fst_zip hlen.le
    · rw [hk, List.map_fst_zip hlen.le]; exact number_nodup _ _

/-! ## Saving -/

/-- The lists of an editor whose parts belong together do so in the file. -/
theorem saveArgs_wf {e : Editor} (h : Inv e) : WF (saveArgs e) := by
  have hm : e.machFlags.length = e.altFlags.length := by rw [h.altF, h.machF]
  have hn : (saveArgs e).times.length = e.n := by simp [saveArgs, Editor.n]
  refine ⟨?_, ?_, ?_, ?_, ?_, ?_⟩ <;> rw [hn]
  · simp [saveArgs, h.alt]
  · simp [saveArgs, h.mach]
  · simp only [saveArgs]; split_ifs with hc
    · simp
    · rw [hm]; exact not_not.1 hc
  · simp only [saveArgs]; split_ifs with hc
    · simp
    · exact not_not.1 hc
  · exact h.orders
  · rfl

/-- **Saving**: a mission is saved unless its times decrease or the user declines low Mach numbers. -/
theorem save_spec {e : Editor} (h : Inv e) (hn : 0 < e.n) {f q : ℚ} (hq : factor (e.units .time) = some q)
    (hf : factor (e.units .alt) = some f) (answer : Bool) :
    ∃ r, createPhaseInfo (saveArgs e) = .ok r ∧ save e answer = .ok (if forwards (e.data .time) = true ∧
      ((∃ m ∈ e.data .mach, m < 1 / 4) → answer = true) then some r else none) := by
  obtain ⟨r, hr, -⟩ := create_spec (saveArgs_wf h) (f := f) (q := q) hq hf
  refine ⟨r, hr, ?_⟩
  unfold save
  have hne : e.data .mach ≠ [] := by
    intro h0; have := h.mach; rw [h0] at this; simp at this; omega
  cases hfw : forwards (e.data .time) with
  | false => simp
  | true =>
    simp only [Bool.true_eq_false, if_false, if_neg hne, hr, Except.map, true_and]
    by_cases hl : ∃ m ∈ e.data .mach, m < 1 / 4
    · have : (e.data .mach).any (· < 1 / 4) = true := by
        rw [List.any_eq_true]; obtain ⟨m, h1, h2⟩ := hl; exact ⟨m, h1, by simpa using h2⟩
      rw [this]
      cases answer
      · have hno : ¬ ((∃ m ∈ e.data .mach, m < 1 / 4) → false = true) := fun hh => Bool.noConfusion (hh hl)
        simp only [if_neg hno]; rfl
      · simp only [implies_true, if_true]; rfl
    · have : (e.data .mach).any (· < 1 / 4) = false := by
        rw [List.any_eq_false]; intro m hm h2; exact hl ⟨m, hm, by simpa using h2⟩
      rw [this, if_pos (fun hh => absurd hh hl)]
      rfl

/-! ## Opening -/

theorem set_append_drop {α : Type} (l : List α) (i : ℕ) (x : α) (h : i < l.length) :
    (l.set i x).take (i + 1) = l.take i ++ [x] := by
  rw [List.take_set, List.take_add_one, List.getElem?_eq_getElem h]
  simp only [Option.toList_some]
  rw [List.set_append_right _ _ (by simp [Nat.min_eq_left h.le])]
  simp [Nat.min_eq_left h.le]

/-- The phases of a file that fit into the lists fill them. -/
theorem loadPhases_spec (ps : List PhaseInfo) : ∀ (s : Loading) (idx : ℕ), idx + 1 + ps.length = (s.data .time).length →
    (s.data .alt).length = (s.data .time).length → (s.data .mach).length = (s.data .time).length →
    s.altFlags.length + 1 = (s.data .time).length → s.machFlags.length + 1 = (s.data .time).length →
    ∃ s', loadPhases s idx ps = .ok s' ∧
      s'.data .time = (s.data .time).take (idx + 1) ++ ps.map (fun p => p.guess.2 + p.guess.1) ∧
      s'.data .alt = (s.data .alt).take (idx + 1) ++ ps.map (·.altFinal) ∧
      s'.data .mach = (s.data .mach).take (idx + 1) ++ ps.map (·.machFinal) ∧
      s'.altFlags = s.altFlags.take idx ++ ps.map (·.altOptimize) ∧
      s'.machFlags = s.machFlags.take idx ++ ps.map (·.machOptimize) ∧
      s'.orders = s.orders ++ ps.map (·.order) ∧
      s'.opts = (match ps.getLast? with
        | none => s.opts
        | some p => { s.opts with solve := p.solve, poly := p.polyOrder }) ∧
      s'.units = (fun | .time => (match ps.getLast? with | none => s.units .time | some p => p.timeUnit)
                      | .alt => s.units .alt | .mach => s.units .mach) := by
  induction ps with
  | nil =>
    intro s idx h1 h2 h3 h4 h5
    simp only [List.length_nil] at h1
    refine ⟨s, rfl, ?_⟩
    refine ⟨?_, ?_, ?_, ?_, ?_, ?_, rfl, ?_⟩
    · rw [List.map_nil, List.append_nil, List.take_of_length_le (by omega)]
    · rw [List.map_nil, List.append_nil, List.take_of_length_le (by omega)]
    · rw [List.map_nil, List.append_nil, List.take_of_length_le (by omega)]
    · rw [List.map_nil, List.append_nil, List.take_of_length_le (by omega)]
    · rw [List.map_nil, List.append_nil, List.take_of_length_le (by omega)]
    · simp
    · funext a; cases a <;> rfl
  | cons p ps ih =>
    intro s idx h1 h2 h3 h4 h5
    simp only [List.length_cons] at h1
    set S := loaded s idx p with hS
    have hl : loadPhase s idx p = .ok S := if_pos (by omega)
    rw [loadPhases, hl]
    simp only [bind, Except.bind]
    obtain ⟨s', e0, e1, e2, e3, e4, e5, e6, e7, e8⟩ := ih S (idx + 1) (by simp [hS, loaded]; omega) (by simpa [hS, loaded] using h2)
      (by simpa [hS, loaded] using h3) (by simpa [hS, loaded] using h4) (by simpa [hS, loaded] using h5)
    simp only [hS, loaded] at e1 e2 e3 e4 e5 e6 e7 e8
    refine ⟨s', e0, ?_, ?_, ?_, ?_, ?_, ?_, ?_, ?_⟩
    · rw [e1, set_append_drop _ _ _ (by omega)]; simp
    · rw [e2, set_append_drop _ _ _ (by omega)]; simp
    · rw [e3, set_append_drop _ _ _ (by omega)]; simp
    · rw [e4, set_append_drop _ _ _ (by omega)]; simp
    · rw [e5, set_append_drop _ _ _ (by omega)]; simp
    · rw [e6]; simp
    · rw [e7, List.getLast?_cons]
      cases ps.getLast? <;> rfl
    · rw [e8, List.getLast?_cons]
      funext a
      cases a
      · cases ps.getLast? <;> rfl
      · rfl
      · rfl

/-- The lists of a file are those of the points it was made of. -/
theorem range_map_succ {α : Type} (l : List α) (d : α) (n : ℕ) (h : l.length = n + 1) :
    [l.getD 0 d] ++ (List.range n).map (fun i => l.getD (i + 1) d) = l := by
  apply List.ext_getElem?
  intro i
  cases i with
  | zero => cases l with
    | nil => simp at h
    | cons a l => simp
  | succ j =>
    rw [List.singleton_append, List.getElem?_cons_succ, List.getElem?_map]
    by_cases hj : j < n
    · rw [List.getElem?_range hj, Option.map_some, List.getD_eq_getElem?_getD, List.getElem?_eq_getElem (by omega)]; rfl
    · rw [List.getElem?_eq_none (by simp; omega), List.getElem?_eq_none (by omega)]; rfl

theorem range_map_getD {α : Type} (l : List α) (d : α) (n : ℕ) (h : l.length = n) :
    (List.range n).map (fun i => l.getD i d) = l := by
  apply List.ext_getElem?
  intro j
  rw [List.getElem?_map]
  by_cases hj : j < n
  · rw [List.getElem?_range hj, Option.map_some, List.getD_eq_getElem?_getD, List.getElem?_eq_getElem (by omega)]; rfl
  · rw [List.getElem?_eq_none (by simp; omega), List.getElem?_eq_none (by omega)]; rfl

/-- What the editor holds after a file written by `create_phase_info` has been opened. -/
def opened (e : Editor) (c : Args) : Editor :=
  let s := e.showOpt || c.altFlags.any id || c.machFlags.any id
  { data := fun | .time => c.times | .alt => c.alts | .mach => c.machs
    orders := c.orders
    rows := c.times.length
    altFlags := if s then c.altFlags else []
    machFlags := if s then c.machFlags else []
    showOpt := s
    units := c.units
    limits := fun a => maxOf ((fun | .time => c.times | .alt => c.alts | .mach => c.machs : Axis → List ℚ) a) * (6 / 5)
    digits := e.digits
    opts := { c.opts with poly := c.poly } }

/-- **Opening what was written**: the editor shows the points, orders, boxes, units and options that were written. -/
theorem open_create {c : Args} (h : WF c) (h2 : 2 ≤ c.times.length) {r : Info} (hr : createPhaseInfo c = .ok r)
    {f q : ℚ} (hq : factor (c.units .time) = some q) (hf : factor (c.units .alt) = some f) {e : Editor} (he : 0 < e.rows) :
    openInfo e r = (opened e c, none) := by
  obtain ⟨r', hr', hph, -, -, ht, hl, hc, -⟩ := create_spec h hq hf
  obtain rfl : r' = r := Except.ok.inj (hr'.symm.trans hr)
  obtain ⟨n, hn⟩ : ∃ n, c.times.length = n + 2 := ⟨c.times.length - 2, by omega⟩
  have hphn : c.phases = n + 1 := by simp [Args.phases, hn]
  rw [hphn] at hph
  set R := phaseRec c (500 * (3048 / 10000) / f) with hR
  unfold openInfo
  cases hp : r'.phases with
  | nil => rw [hp] at hph; simp [List.range_succ_eq_map] at hph
  | cons kp rest =>
    obtain ⟨k, p⟩ := kp
    have hp0 : p = R 0 := by
      rw [hp, List.range_succ_eq_map] at hph
      simp only [List.map_cons] at hph
      exact (List.cons.inj hph).1
    dsimp only
    rw [← hp, hph]
    obtain ⟨s, e0, e1, e2, e3, e4, e5, e6, e7, e8⟩ := loadPhases_spec ((List.range (n + 1)).map R) (startLoading e.opts p) 0
      (by rw [hp0]; simp [startLoading, hR, phaseRec, h.segments, hn]; omega) (by simp [startLoading]) (by simp [startLoading])
      (by simp [startLoading]) (by simp [startLoading])
    have hlast : ((List.range (n + 1)).map R).getLast? = some (R n) := by simp [List.range_succ]
    rw [e0]
    rw [hlast] at e7 e8
    have d1 : s.data .time = c.times := by
      rw [e1, List.map_map, hp0]
      rw [← range_map_succ c.times 0 (n + 1) hn]
      simp [startLoading, hR, phaseRec, Function.comp_def]
    have d2 : s.data .alt = c.alts := by
      rw [e2, List.map_map, hp0]
      rw [← range_map_succ c.alts 0 (n + 1) (by rw [h.alts, hn])]
      simp [startLoading, hR, phaseRec, Function.comp_def]
    have d3 : s.data .mach = c.machs := by
      rw [e3, List.map_map, hp0]
      rw [← range_map_succ c.machs 0 (n + 1) (by rw [h.machs, hn])]
      simp [startLoading, hR, phaseRec, Function.comp_def]
    have d4 : s.altFlags = c.altFlags := by
      rw [e4, List.map_map, List.take_zero, List.nil_append]
      exact range_map_getD c.altFlags false (n + 1) (by rw [h.altFlags, hn]; rfl)
    have d5 : s.machFlags = c.machFlags := by
      rw [e5, List.map_map, List.take_zero, List.nil_append]
      exact range_map_getD c.machFlags false (n + 1) (by rw [h.machFlags, hn]; rfl)
    have d6 : s.orders = c.orders := by
      rw [e6, List.map_map]
      exact range_map_getD c.orders 0 (n + 1) (by rw [h.orders, hn]; rfl)
    have d8 : s.units = c.units := by
      rw [e8, hp0]; funext a; cases a <;> rfl
    have d7 : s.opts = { e.opts with solve := c.opts.solve, poly := c.poly } := by rw [e7]; rfl
    have dd : s.data = (fun | .time => c.times | .alt => c.alts | .mach => c.machs) := by
      funext a; cases a
      · exact d1
      · exact d2
      · exact d3
    dsimp only
    rw [d4, d5, d6, d7, d8, dd]
    rw [redraw_ok (by simpa [Editor.n] using h.alts) (by simpa [Editor.n] using h.machs)]
    simp only [Res.andThen]
    rw [updateTable_all _ (by exact he) (by simpa [Editor.n] using h.alts) (by simpa [Editor.n] using h.machs)
      (fun f hf _ => by cases hf; simp [Editor.n, h.altFlags, h.machFlags])]
    have t1 : pick (some c.altFlags) 1 (c.times.length - 1) = c.altFlags := by
      simp [pick, ← h.altFlags]
    have t2 : pick (some c.machFlags) 1 (c.times.length - 1) = c.machFlags := by
      simp [pick, ← h.machFlags]
    simp only [Editor.n, Option.map_some, t1, t2, opened, ht, hl, hc]

/-- The state after opening satisfies the invariant of the editor. -/
theorem opened_inv {c : Args} (h : WF c) (hc : ∀ x, x ∈ c.times ∨ x ∈ c.alts ∨ x ∈ c.machs → 0 ≤ x) (e : Editor) :
    Inv (opened e c) := by
  refine ⟨h.alts, h.machs, h.orders, rfl, ?_, ?_, ?_⟩
  · by_cases hb : (opened e c).showOpt = true
    · rw [if_pos hb]; exact (congrArg List.length (if_pos hb)).trans h.altFlags
    · rw [if_neg hb]; exact congrArg List.length (if_neg hb)
  · by_cases hb : (opened e c).showOpt = true
    · rw [if_pos hb]; exact (congrArg List.length (if_pos hb)).trans h.machFlags
    · rw [if_neg hb]; exact congrArg List.length (if_neg hb)
  · intro a x hx
    cases a
    · exact hc x (Or.inl hx)
    · exact hc x (Or.inr (Or.inl hx))
    · exact hc x (Or.inr (Or.inr hx))

theorem all_false {l : List Bool} (h : l.any id = false) : l = List.replicate l.length false := by
  rw [List.eq_replicate_iff]
  refine ⟨rfl, fun b hb => ?_⟩
  rw [List.any_eq_false] at h
  simpa using h b hb

theorem forwards_map_sig {l : List ℚ} (p : ℕ) (h0 : ∀ x ∈ l, 0 ≤ x) (h : forwards l = true) : forwards (l.map (sig p)) = true := by
  induction l with
  | nil => rfl
  | cons a l ih => cases l with
    | nil => rfl
    | cons b l =>
      simp only [forwards, Bool.and_eq_true, decide_eq_true_eq] at h
      have := ih (fun x hx => h0 x (by simp [hx])) h.2
      simp only [List.map_cons, forwards, Bool.and_eq_true, decide_eq_true_eq]
      exact ⟨sig_mono p (h0 a (by simp)) h.1, by simpa using this⟩

theorem map_sig_idem (p : ℕ) {l : List ℚ} (h0 : ∀ x ∈ l, 0 ≤ x) : (l.map (sig p)).map (sig p) = l.map (sig p) := by
  rw [List.map_map]
  exact List.map_congr_left fun x hx => sig_idem p (h0 x hx)

/-- **Round trip**: a mission of at least two points that was saved is opened, in any editor that shows at least one row and
rounds alike, with the rounded points and otherwise as it was saved; the lists belong together; and saving it again writes the
same file. -/
theorem save_open_save {e : Editor} (h : Inv e) (h2 : 2 ≤ e.n) {f q : ℚ} (hq : factor (e.units .time) = some q)
    (hf : factor (e.units .alt) = some f) {answer : Bool} {r : Info} (hs : save e answer = .ok (some r)) {e0 : Editor}
    (h0 : 0 < e0.rows) (hd : e0.digits = e.digits) :
    ∃ e1, openInfo e0 r = (e1, none) ∧ Inv e1 ∧ (∀ a, e1.data a = (e.data a).map (sig (e.digits a))) ∧ e1.orders = e.orders ∧
      e1.units = e.units ∧ e1.opts = e.opts ∧ (saveArgs e1).altFlags = (saveArgs e).altFlags ∧
      (saveArgs e1).machFlags = (saveArgs e).machFlags ∧ save e1 true = .ok (some r) := by
  obtain ⟨r', hr', hs'⟩ := save_spec h (by omega) hq hf answer
  rw [hs] at hs'
  have hfw : forwards (e.data .time) = true ∧ r = r' := by
    have := Except.ok.inj hs'
    split_ifs at this with hc
    · exact ⟨hc.1, Option.some.inj this⟩
  obtain ⟨hfw, rfl⟩ := hfw
  have hwf := saveArgs_wf h
  have hlen : (saveArgs e).times.length = e.n := by simp [saveArgs, Editor.n]
  have hop := open_create hwf (by omega) hr' hq hf h0 (e := e0)
  have hnn : ∀ x, x ∈ (saveArgs e).times ∨ x ∈ (saveArgs e).alts ∨ x ∈ (saveArgs e).machs → 0 ≤ x := by
    rintro x (hx | hx | hx) <;> obtain ⟨y, hy, rfl⟩ := List.mem_map.1 hx <;> exact sig_nonneg _ (h.nonneg _ y hy)
  have hinv := opened_inv hwf hnn e0
  have hdata : ∀ a, (opened e0 (saveArgs e)).data a = (e.data a).map (sig (e.digits a)) := by intro a; cases a <;> rfl
  have hN : (opened e0 (saveArgs e)).n = e.n := hlen
  have hfa : (saveArgs (opened e0 (saveArgs e))).altFlags = (saveArgs e).altFlags ∧
      (saveArgs (opened e0 (saveArgs e))).machFlags = (saveArgs e).machFlags := by
    have la := hwf.altFlags
    have lm := hwf.machFlags
    rw [hlen] at la lm
    have A : ∀ x : Editor, (saveArgs x).altFlags = if x.altFlags.length ≠ x.n - 1 then List.replicate (x.n - 1) false else x.altFlags :=
      fun _ => rfl
    have M : ∀ x : Editor, (saveArgs x).machFlags = if x.altFlags.length ≠ x.n - 1 then List.replicate (x.n - 1) false else x.machFlags :=
      fun _ => rfl
    cases hso : (opened e0 (saveArgs e)).showOpt with
    | true =>
      have h1 : (opened e0 (saveArgs e)).altFlags = (saveArgs e).altFlags := if_pos hso
      have h2' : (opened e0 (saveArgs e)).machFlags = (saveArgs e).machFlags := if_pos hso
      rw [A, M, hN, h1, h2', if_neg (by simpa using la), if_neg (by simpa using la)]
      exact ⟨rfl, rfl⟩
    | false =>
      have hb : (e0.showOpt || (saveArgs e).altFlags.any id || (saveArgs e).machFlags.any id) = false := hso
      simp only [Bool.or_eq_false_iff] at hb
      have h1 : (opened e0 (saveArgs e)).altFlags = [] := if_neg (by rw [show (e0.showOpt || (saveArgs e).altFlags.any id || (saveArgs e).machFlags.any id) = false from hso]; simp)
      rw [A, M, hN, h1, if_pos (by simp; omega), if_pos (by simp; omega)]
      have z1 := all_false hb.1.2
      have z2 := all_false hb.2
      rw [la] at z1
      rw [lm] at z2
      exact ⟨z1.symm, z2.symm⟩
  have hargs : saveArgs (opened e0 (saveArgs e)) = saveArgs e := by
    have hn1 : (saveArgs (opened e0 (saveArgs e))).numSegments = (saveArgs e).numSegments := by
      show (opened e0 (saveArgs e)).n - 1 = e.n - 1; rw [hN]
    have ht : (saveArgs (opened e0 (saveArgs e))).times = (saveArgs e).times := by
      show ((e.data .time).map (sig (e.digits .time))).map (sig (e0.digits .time)) = _
      rw [hd]; exact map_sig_idem _ (h.nonneg .time)
    have ha : (saveArgs (opened e0 (saveArgs e))).alts = (saveArgs e).alts := by
      show ((e.data .alt).map (sig (e.digits .alt))).map (sig (e0.digits .alt)) = _
      rw [hd]; exact map_sig_idem _ (h.nonneg .alt)
    have hm : (saveArgs (opened e0 (saveArgs e))).machs = (saveArgs e).machs := by
      show ((e.data .mach).map (sig (e.digits .mach))).map (sig (e0.digits .mach)) = _
      rw [hd]; exact map_sig_idem _ (h.nonneg .mach)
    have key : ∀ a b : Args, a.times = b.times → a.alts = b.alts → a.machs = b.machs → a.units = b.units → a.poly = b.poly →
        a.numSegments = b.numSegments → a.machFlags = b.machFlags → a.altFlags = b.altFlags → a.opts = b.opts →
        a.orders = b.orders → a = b := by
      rintro ⟨⟩ ⟨⟩; simp_all
    exact key _ _ ht ha hm rfl rfl hn1 hfa.2 hfa.1 rfl rfl
  refine ⟨_, hop, hinv, hdata, rfl, rfl, rfl, hfa.1, hfa.2, ?_⟩
  obtain ⟨r2, k1, k2⟩ := save_spec hinv (by omega) (f := f) (q := q) hq hf true
  rw [hargs, hr'] at k1
  obtain rfl := Except.ok.inj k1
  have hfw' : forwards ((opened e0 (saveArgs e)).data .time) = true := by
    rw [hdata]; exact forwards_map_sig _ (h.nonneg .time) hfw
  rw [k2, if_pos ⟨hfw', fun _ => rfl⟩]

end Verif.MissionEditor
