import Verif.Model.GaspIdle
import Verif.Props.GaspMaps

/-! ## C135: converted GASP decks -/

namespace Verif.GaspIdle

open GaspMaps

/-! ### Inlet conditions -/

theorem inletT_eq (mach T : ℝ) : inletT mach T = T * (1 + mach ^ 2 / 5) := by
  unfold inletT
  have e : (0.5 : ℝ) * (1.4 - 1) = 1 / 5 := by norm_num
  rw [e]
  ring

theorem inletT_div {T : ℝ} (h : 0 < T) (mach : ℝ) : inletT mach T / T = 1 + mach ^ 2 / 5 := by
  rw [inletT_eq]
  field_simp

/-- **Property.**  The inlet is never colder than the air around it, and at rest it is as cold. -/
theorem inletT_ge {T : ℝ} (h : 0 < T) (mach : ℝ) :
    T ≤ inletT mach T ∧ inletT 0 T = T := by
  rw [inletT_eq, inletT_eq]
  constructor
  · nlinarith [mul_nonneg h.le (sq_nonneg mach)]
  · norm_num

/-- **Property.**  The pressure at the inlet is the isentropic one: with the exponent seven halves. -/
theorem inletP_eq {T : ℝ} (h : 0 < T) (mach P : ℝ) :
    inletP mach T P = P * (1 + mach ^ 2 / 5) ^ (7 / 2 : ℝ) := by
  unfold inletP
  rw [inletT_div h]
  norm_num

/-- **Property.**  The pressure at the inlet is at least that of the air and grows with the Mach
number. -/
theorem inletP_mono {T P : ℝ} (h : 0 < T) (hP : 0 < P) {m n : ℝ} (hm : 0 ≤ m) (hn : m < n) :
    P ≤ inletP m T P ∧ inletP m T P < inletP n T P ∧ inletT m T < inletT n T := by
  rw [inletP_eq h, inletP_eq h, inletT_eq, inletT_eq]
  have h2 : m ^ 2 < n ^ 2 := by nlinarith
  have h1 : (1 : ℝ) ≤ 1 + m ^ 2 / 5 := by nlinarith [sq_nonneg m]
  refine ⟨?_, ?_, ?_⟩
  · have := Real.one_le_rpow h1 (by norm_num : (0 : ℝ) ≤ 7 / 2)
    nlinarith
  · refine mul_lt_mul_of_pos_left (Real.rpow_lt_rpow (by linarith) (by linarith) (by norm_num)) hP
  · nlinarith

/-! ### Idle thrust -/

/-- **Property.**  Thrust and fuel flow at idle for a Mach number and an altitude: the correction of
the air flow by the conditions at the inlet is the one of the air around, times the cube of the ratio
of the temperatures. -/
theorem idleOf_eq (r : IdleRef) (atm : ℝ → ℝ × ℝ) (mach alt : ℝ) (h : 0 < (atm alt).1) :
    (idleOf r atm mach alt).1 =
      r.pct * r.slsAirflow * r.sfn *
        (((atm alt).2 / 2116.22) / Real.sqrt ((atm alt).1 / 518.67)) * (1 + mach ^ 2 / 5) ^ 3 ∧
    (idleOf r atm mach alt).2 = (idleOf r atm mach alt).1 * r.sfc := by
  refine ⟨?_, rfl⟩
  unfold idleOf idleThrust
  dsimp only
  rw [inletP_eq h, inletT_eq]
  have hx : (0 : ℝ) < 1 + mach ^ 2 / 5 := by nlinarith [sq_nonneg mach]
  generalize 1 + mach ^ 2 / 5 = x at hx
  have e1 : (atm alt).1 * x / 518.67 = ((atm alt).1 / 518.67) * x := by ring
  rw [e1, Real.sqrt_mul (by positivity)]
  have e2 : x ^ (7 / 2 : ℝ) = x ^ 3 * Real.sqrt x := by
    rw [Real.sqrt_eq_rpow, ← Real.rpow_natCast x 3, ← Real.rpow_add hx]
    norm_num
  rw [e2]
  have hs : Real.sqrt x ≠ 0 := (Real.sqrt_pos.2 hx).ne'
  have ht : Real.sqrt ((atm alt).1 / 518.67) ≠ 0 := (Real.sqrt_pos.2 (by positivity)).ne'
  field_simp

/-- **Property.**  On the ground at standard conditions the idle thrust is the specific thrust times
half the air flow of the deck, and the fuel flow is the same number. -/
theorem idleOf_sls (w s : ℝ) (atm : ℝ → ℝ × ℝ) (h : atm 0 = (518.67, 2116.22)) :
    idleOf ⟨w, s, 0.5, 1⟩ atm 0 0 = (w * s / 2, w * s / 2) := by
  have h0 : 0 < (atm 0).1 := by rw [h]; norm_num
  have k := idleOf_eq ⟨w, s, 0.5, 1⟩ atm 0 0 h0
  rw [h] at k
  have e : (idleOf ⟨w, s, 0.5, 1⟩ atm 0 0).1 = w * s / 2 := by
    rw [k.1]
    norm_num
    ring
  refine Prod.ext e ?_
  rw [k.2, e]
  simp

/-- **Property.**  The idle thrust is positive and grows with the Mach number. -/
theorem idleOf_mono (r : IdleRef) (atm : ℝ → ℝ × ℝ) {m n alt : ℝ} (hr : 0 < r.pct * r.slsAirflow * r.sfn)
    (hT : 0 < (atm alt).1) (hP : 0 < (atm alt).2) (hm : 0 ≤ m) (hn : m < n) :
    0 < (idleOf r atm m alt).1 ∧ (idleOf r atm m alt).1 < (idleOf r atm n alt).1 := by
  rw [(idleOf_eq r atm m alt hT).1, (idleOf_eq r atm n alt hT).1]
  have hc : 0 < r.pct * r.slsAirflow * r.sfn *
      (((atm alt).2 / 2116.22) / Real.sqrt ((atm alt).1 / 518.67)) := by
    have := Real.sqrt_pos.2 (show 0 < (atm alt).1 / 518.67 by positivity)
    positivity
  have h2 : m ^ 2 < n ^ 2 := by nlinarith
  constructor
  · positivity
  · exact mul_lt_mul_of_pos_left (pow_lt_pow_left₀ (by linarith) (by positivity) (by norm_num)) hc

example : (idleOf ⟨100, 10, 0.5, 1⟩ (fun _ => (518.67, 2116.22)) 1 0).1 = 864 := by
  rw [(idleOf_eq _ _ _ _ (by norm_num)).1]
  norm_num

/-! ### The lines of the deck -/

variable {ν : Type}

/-- A data point: Mach number, altitude, ratio of temperatures, thrust and fuel flow. -/
structure Pt (ν : Type) where
  mach : ℚ
  alt : ℚ
  t4t2 : ℚ
  thrust : ν
  fuel : ν

/-- Columns of data points. -/
def cols (l : List (Pt ν)) : Cols ν :=
  ⟨l.map (·.mach), l.map (·.alt), l.map (·.t4t2), l.map (·.thrust), l.map (·.fuel)⟩

/-- The idle points: one for every Mach number and altitude of the deck. -/
def idlePts (idle : ℚ → ℚ → ν × ν) (l : List (Pt ν)) : List (Pt ν) :=
  (mesh (l.map (·.mach)) (l.map (·.alt))).map fun p =>
    ⟨p.1, p.2, 0, (idle p.1 p.2).1, (idle p.1 p.2).2⟩

/-- What the throttle of a data point should be. -/
def thr (t2 : ℚ → ℚ → ℚ) (t4max : ℚ) (p : Pt ν) : ℚ :=
  (if t4max ≤ 100 then p.t4t2 else t2 p.mach p.alt * p.t4t2) / t4max

/-- The line of a data point. -/
def toLine (t2 : ℚ → ℚ → ℚ) (t4max : ℚ) (p : Pt ν) : Line ν :=
  ⟨p.mach, p.alt, thr t2 t4max p, if t4max ≤ 100 then none else some (t2 p.mach p.alt * p.t4t2),
    p.thrust, p.fuel⟩

/-- **Property.**  The idle points are appended to all columns alike. -/
theorem addIdle_cols (idle : ℚ → ℚ → ν × ν) (l : List (Pt ν)) :
    addIdle idle (cols l) = cols (l ++ idlePts idle l) := by
  unfold addIdle cols idlePts
  simp only [List.map_append, List.map_map, Function.comp_def, List.map_const']

/-- **Property.**  The combinations of the Mach numbers and altitudes, each once. -/
theorem mesh_spec (ms as : List ℚ) :
    (mesh ms as).Nodup ∧ (∀ m a, (m, a) ∈ mesh ms as ↔ m ∈ ms ∧ a ∈ as) ∧
      (mesh ms as).length = (unique ms).length * (unique as).length := by
  have hm := unique_spec ms
  have ha := unique_spec as
  refine ⟨?_, fun m a => ?_, ?_⟩
  · unfold mesh
    rw [List.nodup_flatMap]
    refine ⟨fun a _ => ?_, ?_⟩
    · exact (hm.1.imp fun h => h.ne).map _ fun _ _ h e => h (by simpa using congrArg Prod.fst e)
    · refine ha.1.imp fun {a b} h => ?_
      rw [Function.onFun, List.disjoint_left]
      intro p hp hq
      simp only [List.mem_map] at hp hq
      obtain ⟨_, _, rfl⟩ := hp
      obtain ⟨_, _, e⟩ := hq
      exact h.ne (congrArg Prod.snd e).symm
  · unfold mesh
    simp only [List.mem_flatMap, List.mem_map, Prod.mk.injEq, ha.2, hm.2]
    constructor
    · rintro ⟨b, hb, x, hx, rfl, rfl⟩
      exact ⟨hx, hb⟩
    · rintro ⟨h1, h2⟩
      exact ⟨a, h2, m, h1, rfl, rfl⟩
  · unfold mesh
    rw [List.length_flatMap]
    simp only [List.length_map, List.map_const', List.sum_replicate, smul_eq_mul]
    rw [Nat.mul_comm]

theorem pick_map {α β : Type} (b : α → Bool) (f : α → β) (l : List α) :
    pick (l.map b) (l.map f) = (l.filter b).map f := by
  induction l with
  | nil => rfl
  | cons x l ih =>
    unfold pick at ih ⊢
    simp only [List.map_cons, List.zip_cons_cons, List.filter_cons]
    cases b x
    · simpa using ih
    · simpa using ih

theorem lines_map {α : Type} (m a t : α → ℚ) (k : α → Option ℚ) (f w : α → ν) (l : List α) :
    lines (l.map m) (l.map a) (l.map t) (l.map k) (l.map f) (l.map w) =
      l.map fun x => ⟨m x, a x, t x, k x, f x, w x⟩ := by
  induction l with
  | nil => rfl
  | cons x l ih => simp only [List.map_cons, lines, ih]

/-- The data points whose throttle does not exceed one. -/
def kept (t2 : ℚ → ℚ → ℚ) (t4max : ℚ) (l : List (Pt ν)) : List (Pt ν) :=
  l.filter fun p => thr t2 t4max p ≤ 1

theorem deckLines_eq (t2 : ℚ → ℚ → ℚ) (t4max : ℚ) (idle : ℚ → ℚ → ν × ν) (l : List (Pt ν)) :
    deckLines t2 t4max idle (cols l) =
      ((kept t2 t4max (l ++ idlePts idle l)).map (toLine t2 t4max)).mergeSort lineLe := by
  unfold deckLines
  rw [addIdle_cols]
  generalize l ++ idlePts idle l = q
  unfold cols temps
  dsimp only
  simp only [List.zipWith_map, List.zipWith_self, List.map_map]
  by_cases h : t4max ≤ 100
  · have hi : isThrottle t4max 1 = true := by simp [isThrottle, h]
    simp only [hi, if_true, List.map_map]
    rw [pick_map, pick_map, pick_map, pick_map, pick_map, pick_map, lines_map]
    unfold kept toLine thr norm
    simp only [h, if_true, Function.comp_def, sub_zero]
  · have hi : isThrottle t4max 1 = false := by simp [isThrottle, h]
    simp only [hi, List.map_map, Bool.false_eq_true, if_false]
    rw [pick_map, pick_map, pick_map, pick_map, pick_map, pick_map, lines_map]
    unfold kept toLine thr norm
    simp only [h, if_false, Function.comp_def, sub_zero]

theorem lineLe_iff (a b : Line ν) : lineLe a b = true ↔
    a.mach < b.mach ∨ a.mach = b.mach ∧ (a.alt < b.alt ∨ a.alt = b.alt ∧ a.throttle ≤ b.throttle) := by
  simp [lineLe]

theorem lineLe_trans (a b c : Line ν) (h : lineLe a b = true) (k : lineLe b c = true) :
    lineLe a c = true := by
  rw [lineLe_iff] at *
  rcases h with h | ⟨h, h'⟩ <;> rcases k with k | ⟨k, k'⟩
  · exact .inl (h.trans k)
  · exact .inl (k ▸ h)
  · exact .inl (h ▸ k)
  · refine .inr ⟨h.trans k, ?_⟩
    rcases h' with h' | ⟨h', h''⟩ <;> rcases k' with k' | ⟨k', k''⟩
    · exact .inl (h'.trans k')
    · exact .inl (k' ▸ h')
    · exact .inl (h' ▸ k')
    · exact .inr ⟨h'.trans k', h''.trans k''⟩

theorem lineLe_total (a b : Line ν) : (lineLe a b || lineLe b a) = true := by
  rw [Bool.or_eq_true, lineLe_iff, lineLe_iff]
  rcases lt_trichotomy a.mach b.mach with h | h | h
  · exact .inl (.inl h)
  · rcases lt_trichotomy a.alt b.alt with k | k | k
    · exact .inl (.inr ⟨h, .inl k⟩)
    · rcases le_total a.throttle b.throttle with j | j
      · exact .inl (.inr ⟨h, .inr ⟨k, j⟩⟩)
      · exact .inr (.inr ⟨h.symm, .inr ⟨k.symm, j⟩⟩)
    · exact .inr (.inr ⟨h.symm, .inl k⟩)
  · exact .inr (.inl h)

/-- **Property.**  The lines written are those of the data points and the idle points whose throttle
does not exceed one, sorted by Mach number, altitude and throttle. -/
theorem deckLines_spec (t2 : ℚ → ℚ → ℚ) (t4max : ℚ) (idle : ℚ → ℚ → ν × ν) (l : List (Pt ν)) :
    (deckLines t2 t4max idle (cols l)).Perm
      ((kept t2 t4max (l ++ idlePts idle l)).map (toLine t2 t4max)) ∧
    (deckLines t2 t4max idle (cols l)).Pairwise (fun a b =>
      a.mach < b.mach ∨ a.mach = b.mach ∧ (a.alt < b.alt ∨ a.alt = b.alt ∧ a.throttle ≤ b.throttle)) := by
  rw [deckLines_eq]
  refine ⟨List.mergeSort_perm _ _, ?_⟩
  exact (List.pairwise_mergeSort lineLe_trans lineLe_total _).imp fun h => (lineLe_iff _ _).1 h

/-- **Property.**  No throttle of a written deck exceeds one. -/
theorem throttle_le_one (t2 : ℚ → ℚ → ℚ) (t4max : ℚ) (idle : ℚ → ℚ → ν × ν) (l : List (Pt ν))
    {x : Line ν} (h : x ∈ deckLines t2 t4max idle (cols l)) : x.throttle ≤ 1 := by
  rw [(deckLines_spec t2 t4max idle l).1.mem_iff, List.mem_map] at h
  obtain ⟨p, hp, rfl⟩ := h
  unfold kept at hp
  simpa [toLine] using (List.mem_filter.1 hp).2

/-- **Property.**  A written deck has no negative throttle, if the data have no negative ratio. -/
theorem throttle_nonneg {t2 : ℚ → ℚ → ℚ} {t4max : ℚ} (idle : ℚ → ℚ → ν × ν) {l : List (Pt ν)}
    (h4 : 0 < t4max) (h2 : ∀ m a, 0 < t2 m a) (hl : ∀ p ∈ l, 0 ≤ p.t4t2)
    {x : Line ν} (h : x ∈ deckLines t2 t4max idle (cols l)) : 0 ≤ x.throttle := by
  rw [(deckLines_spec t2 t4max idle l).1.mem_iff, List.mem_map] at h
  obtain ⟨p, hp, rfl⟩ := h
  have hp : p ∈ l ++ idlePts idle l := (List.mem_filter.1 hp).1
  have hq : 0 ≤ p.t4t2 := by
    rcases List.mem_append.1 hp with hp | hp
    · exact hl p hp
    · unfold idlePts at hp
      obtain ⟨q, _, rfl⟩ := List.mem_map.1 hp
      exact le_rfl
  show 0 ≤ thr t2 t4max p
  unfold thr
  refine div_nonneg ?_ h4.le
  split
  · exact hq
  · exact mul_nonneg (h2 _ _).le hq

theorem thr_zero (t2 : ℚ → ℚ → ℚ) (t4max m a : ℚ) (f w : ν) : thr t2 t4max ⟨m, a, 0, f, w⟩ = 0 := by
  simp [thr]

/-- **Property.**  Every combination of a Mach number and an altitude of the deck has an idle line
with throttle zero, whatever maximum the deck gives. -/
theorem idle_line (t2 : ℚ → ℚ → ℚ) (t4max : ℚ) (idle : ℚ → ℚ → ν × ν) (l : List (Pt ν)) {p q : Pt ν}
    (hp : p ∈ l) (hq : q ∈ l) :
    ∃ x ∈ deckLines t2 t4max idle (cols l), x.mach = p.mach ∧ x.alt = q.alt ∧ x.throttle = 0 ∧
      x.thrust = (idle p.mach q.alt).1 ∧ x.fuel = (idle p.mach q.alt).2 := by
  refine ⟨toLine t2 t4max ⟨p.mach, q.alt, 0, (idle p.mach q.alt).1, (idle p.mach q.alt).2⟩, ?_, rfl,
    rfl, thr_zero _ _ _ _ _ _, rfl, rfl⟩
  rw [(deckLines_spec t2 t4max idle l).1.mem_iff]
  refine List.mem_map_of_mem (List.mem_filter.2 ⟨List.mem_append_right _ ?_, ?_⟩)
  · exact List.mem_map.2 ⟨(p.mach, q.alt), ((mesh_spec _ _).2.1 _ _).2
      ⟨List.mem_map_of_mem hp, List.mem_map_of_mem hq⟩, rfl⟩
  · rw [thr_zero]
    decide

theorem countP_mesh {ms as : List ℚ} {m a : ℚ} (hm : m ∈ ms) (ha : a ∈ as) :
    (mesh ms as).countP (fun p => p.1 = m ∧ p.2 = a) = 1 := by
  have h := mesh_spec ms as
  have e : (fun p : ℚ × ℚ => decide (p.1 = m ∧ p.2 = a)) = fun p => p == (m, a) := by
    funext p
    rw [Bool.eq_iff_iff]
    simp [Prod.ext_iff]
  rw [e]
  exact List.count_eq_one_of_mem h.1 ((h.2.1 m a).2 ⟨hm, ha⟩)

/-- **Property.**  The number of lines with throttle zero at a condition: the idle line, and one for
every data point that has ratio zero there. -/
theorem idle_count {t2 : ℚ → ℚ → ℚ} {t4max : ℚ} (idle : ℚ → ℚ → ν × ν) {l : List (Pt ν)} {p q : Pt ν}
    (h4 : 0 < t4max) (h2 : ∀ m a, 0 < t2 m a) (hp : p ∈ l) (hq : q ∈ l) :
    (deckLines t2 t4max idle (cols l)).countP
        (fun x => x.mach = p.mach ∧ x.alt = q.alt ∧ x.throttle = 0) =
      l.countP (fun x => x.mach = p.mach ∧ x.alt = q.alt ∧ x.t4t2 = 0) + 1 := by
  rw [(deckLines_spec t2 t4max idle l).1.countP_eq, List.countP_map]
  unfold kept
  rw [List.countP_filter, List.countP_append]
  have hz : ∀ x : Pt ν, thr t2 t4max x = 0 ↔ x.t4t2 = 0 := fun x => by
    unfold thr
    rw [div_eq_zero_iff]
    have h3 := (h2 x.mach x.alt).ne'
    have h5 := h4.ne'
    split <;> simp [h3, h5]
  congr 1
  · refine List.countP_congr fun x _ => ?_
    simp only [Function.comp_apply, toLine, hz, Bool.and_eq_true, decide_eq_true_eq]
    constructor
    · exact fun h => h.1
    · exact fun h => ⟨h, by rw [(hz x).2 h.2.2]; norm_num⟩
  · unfold idlePts
    rw [List.countP_map, ← countP_mesh (List.mem_map_of_mem (f := (·.mach)) hp)
      (List.mem_map_of_mem (f := (·.alt)) hq)]
    refine List.countP_congr fun x _ => ?_
    simp only [Function.comp_apply, toLine, thr_zero, decide_eq_true_eq, Bool.and_eq_true]
    norm_num

/-- **Property (finding).**  A deck with a data point of ratio zero gets two lines with the same Mach
number, altitude and throttle, whatever their thrusts are. -/
theorem distinct_lines_violated {t2 : ℚ → ℚ → ℚ} {t4max : ℚ} (idle : ℚ → ℚ → ν × ν) {l : List (Pt ν)}
    {p : Pt ν} (h4 : 0 < t4max) (h2 : ∀ m a, 0 < t2 m a) (hp : p ∈ l) (h0 : p.t4t2 = 0) :
    2 ≤ (deckLines t2 t4max idle (cols l)).countP
        (fun x => x.mach = p.mach ∧ x.alt = p.alt ∧ x.throttle = 0) := by
  rw [idle_count idle h4 h2 hp hp]
  have : 0 < l.countP (fun x => x.mach = p.mach ∧ x.alt = p.alt ∧ x.t4t2 = 0) :=
    List.countP_pos_iff.2 ⟨p, hp, by simp [h0]⟩
  omega

/-- **Property.**  With positive ratios in the data the idle line comes first among the lines of its
condition, and all others have a higher throttle. -/
theorem idle_first {t2 : ℚ → ℚ → ℚ} {t4max : ℚ} (idle : ℚ → ℚ → ν × ν) {l : List (Pt ν)} {p q : Pt ν}
    (h4 : 0 < t4max) (h2 : ∀ m a, 0 < t2 m a) (hl : ∀ x ∈ l, 0 < x.t4t2) (hp : p ∈ l) (hq : q ∈ l) :
    ∃ x r, (deckLines t2 t4max idle (cols l)).filter (fun x => x.mach = p.mach ∧ x.alt = q.alt) =
        x :: r ∧ x.throttle = 0 ∧ x.thrust = (idle p.mach q.alt).1 ∧
        x.fuel = (idle p.mach q.alt).2 ∧ ∀ y ∈ r, 0 < y.throttle := by
  obtain ⟨x, hx, hx1, hx2, hx3, hx4, hx5⟩ := idle_line t2 t4max idle l hp hq
  have hc := idle_count idle h4 h2 hp hq
  have h0 : l.countP (fun x => x.mach = p.mach ∧ x.alt = q.alt ∧ x.t4t2 = 0) = 0 := by
    rw [List.countP_eq_zero]
    intro y hy
    have := (hl y hy).ne'
    simp [this]
  rw [h0, Nat.zero_add] at hc
  have hs := (deckLines_spec t2 t4max idle l).2
  have hn := fun {y} => throttle_nonneg idle h4 h2 (fun z hz => (hl z hz).le) (x := y)
  generalize deckLines t2 t4max idle (cols l) = D at hx hc hs hn
  have hF := hs.filter (fun x => decide (x.mach = p.mach ∧ x.alt = q.alt))
  have hxF : x ∈ D.filter (fun x => x.mach = p.mach ∧ x.alt = q.alt) :=
    List.mem_filter.2 ⟨hx, by simp [hx1, hx2]⟩
  have hcF : (D.filter (fun x => x.mach = p.mach ∧ x.alt = q.alt)).countP (·.throttle = 0) = 1 := by
    rw [List.countP_filter, ← hc]
    refine List.countP_congr fun y _ => ?_
    simp
    tauto
  have hm : ∀ y ∈ D.filter (fun x => x.mach = p.mach ∧ x.alt = q.alt),
      y.mach = p.mach ∧ y.alt = q.alt ∧ 0 ≤ y.throttle := fun y hy => by
    have := List.mem_filter.1 hy
    have h' := this.2
    simp only [decide_eq_true_eq] at h'
    exact ⟨h'.1, h'.2, hn this.1⟩
  generalize D.filter (fun x => x.mach = p.mach ∧ x.alt = q.alt) = F at hF hxF hcF hm
  cases F with
  | nil => simp at hxF
  | cons y r =>
    have hy := hm y (by simp)
    rw [List.pairwise_cons] at hF
    have key : y.throttle = 0 := by
      rcases List.mem_cons.1 hxF with rfl | hxr
      · exact hx3
      · have := hF.1 x hxr
        have e1 : y.mach = x.mach := hy.1.trans hx1.symm
        have e2 : y.alt = x.alt := hy.2.1.trans hx2.symm
        rcases this with h | ⟨_, h | ⟨_, h⟩⟩
        · exact absurd e1 h.ne
        · exact absurd e2 h.ne
        · exact le_antisymm (hx3 ▸ h) hy.2.2
    rw [List.countP_cons_of_pos (by simp [key])] at hcF
    have hr0 : r.countP (·.throttle = 0) = 0 := by omega
    rw [List.countP_eq_zero] at hr0
    have hrp : ∀ z ∈ r, 0 < z.throttle := fun z hz =>
      lt_of_le_of_ne (hm z (by simp [hz])).2.2 fun e => hr0 z hz (by simp [e.symm])
    have hxy : x = y := by
      rcases List.mem_cons.1 hxF with h | hxr
      · exact h
      · exact absurd hx3 (hrp x hxr).ne'
    subst hxy
    exact ⟨x, r, rfl, hx3, hx4, hx5, hrp⟩

/-- A deck with two Mach numbers; the second point is hotter than the maximum. -/
def sample : List (Pt ℚ) := [⟨1/2, 0, 4, 90, 40⟩, ⟨1/2, 0, 7, 90, 40⟩, ⟨0, 0, 3, 50, 30⟩]

example : ((kept (fun _ _ => 500) 3000 (sample ++ idlePts (fun _ _ => (1, 1)) sample)).map
    fun x => (x.mach, thr (fun _ _ => 500) 3000 x, x.thrust)) =
    [(1/2, 2/3, 90), (0, 1/2, 50), (0, 0, 1), (1/2, 0, 1)] := by
  decide +kernel

example : ∃ x r, (deckLines (fun _ _ => 500) 3000 (fun m _ => (m, 1)) (cols sample)).filter
    (fun x => x.mach = 1/2 ∧ x.alt = 0) = x :: r ∧ x.throttle = 0 ∧ x.thrust = 1/2 := by
  have h := idle_first (t2 := fun _ _ => 500) (t4max := 3000) (fun m _ => (m, (1 : ℚ)))
    (l := sample) (p := ⟨1/2, 0, 4, 90, 40⟩) (q := ⟨1/2, 0, 4, 90, 40⟩) (by norm_num)
    (fun _ _ => by norm_num) (by simp [sample]) (by simp [sample]) (by simp [sample])
  obtain ⟨x, r, h1, h2, h3, _⟩ := h
  exact ⟨x, r, h1, h2, h3⟩

/-- **Property.**  The two kinds of decks: with at most one hundred as maximum, or throttle type
three, the grid has steps of two and there is no temperature. -/
theorem step_keys (f : Format) (t4max : ℚ) (ty : ℕ) (hf : f ≠ .flops) :
    (stepOf t4max ty = 2 ↔ t4max ≤ 100 ∨ ty = 3) ∧
    ("T4" ∈ keys f t4max ty ↔ stepOf t4max ty = 1 / 2) ∧
    (stepOf t4max ty = 2 ∨ stepOf t4max ty = 1 / 2) := by
  have hi : isThrottle t4max ty = true ↔ t4max ≤ 100 ∨ ty = 3 := by simp [isThrottle]
  have key : ∀ b, isThrottle t4max ty = b → ("T4" ∈ keys f t4max ty ↔ b = false) := fun b hb => by
    unfold keys
    rw [hb]
    cases f <;> cases b <;> simp at hf ⊢
  unfold stepOf
  rw [← hi]
  cases h : isThrottle t4max ty <;> rw [key _ h] <;> norm_num

/-- **Property.**  Every column after the first three is an output, the first three are not, and no
column comes twice. -/
theorem keys_spec (f : Format) (t4max : ℚ) (ty : ℕ) :
    (keys f t4max ty).take 3 = ["Mach Number", "Altitude", "Throttle"] ∧
    (∀ k ∈ (keys f t4max ty).drop 3, k ∈ outputs) ∧ (∀ k ∈ (keys f t4max ty).take 3, k ∉ outputs) ∧
    (keys f t4max ty).Nodup := by
  unfold keys
  cases f <;> cases isThrottle t4max ty <;> decide

/-! ### Turboshafts -/

/-- **Property.**  The two lines of the header of a turboshaft deck are read back, with climb before
cruise in the file. -/
theorem readTpHeader_lines {c : Conv ν} (p : Pen ν c) {i j : List Char} {iprint : ℕ} (s : TpScalars ν)
    (hi : i.length = 5) (hj : j.length = 5) (hi' : c.int i = some s.throttleType)
    (hj' : c.int j = some iprint) (rest : List (List Char)) :
    readTpHeader c (p.line ([cnt i s.throttleType, cnt j iprint, p.skip] ++
        [s.t4max, s.t4climb, s.t4cruise, s.t4idle, s.xsfc, s.cexp].map p.fld) ::
      p.line ([s.slsHp, s.turbineRpm, s.propRpm, s.gearRatio, s.torqueLimit, s.slsAirflow].map p.fld) ::
      rest) = some (s, rest) := by
  have key := strparse_fields c ([cnt i s.throttleType, cnt j iprint, p.skip] ++
      [s.t4max, s.t4climb, s.t4cruise, s.t4idle, s.xsfc, s.cexp].map p.fld) p.tail (by
    intro f hf
    simp only [List.map_cons, List.map_nil, List.cons_append, List.nil_append, List.mem_cons,
      List.not_mem_nil, or_false] at hf
    rcases hf with rfl | rfl | rfl | rfl | rfl | rfl | rfl | rfl | rfl
    · simp [Fld.Ok, cnt, convert, hi']
    · simp [Fld.Ok, cnt, convert, hj']
    · simp [Fld.Ok, Pen.skip, convert]
    all_goals exact p.fld_ok _)
  have key2 := strparse_fields c
      ([s.slsHp, s.turbineRpm, s.propRpm, s.gearRatio, s.torqueLimit, s.slsAirflow].map p.fld) p.tail (by
    intro f hf
    obtain ⟨v, _, rfl⟩ := List.mem_map.1 hf
    exact p.fld_ok _)
  have e : (([cnt i s.throttleType, cnt j iprint, p.skip] ++
      [s.t4max, s.t4climb, s.t4cruise, s.t4idle, s.xsfc, s.cexp].map p.fld).map
      fun f => (f.ty, f.txt.length)) = [(Ty.int, 5), (Ty.int, 5), (Ty.skip, 10)] ++ rep 6 := by
    rw [List.map_append, fmt_flds]
    simp [cnt, Pen.skip, hi, hj, p.gap_length]
  have e' : ([cnt i s.throttleType, cnt j iprint, p.skip] ++
      [s.t4max, s.t4climb, s.t4cruise, s.t4idle, s.xsfc, s.cexp].map p.fld).flatMap (·.val) =
      [.int s.throttleType, .int iprint, .flt s.t4max, .flt s.t4climb, .flt s.t4cruise, .flt s.t4idle,
        .flt s.xsfc, .flt s.cexp] := rfl
  rw [e, e'] at key
  rw [fmt_flds] at key2
  have e2 : ([s.slsHp, s.turbineRpm, s.propRpm, s.gearRatio, s.torqueLimit, s.slsAirflow].map
      p.fld).flatMap (·.val) = [.flt s.slsHp, .flt s.turbineRpm, .flt s.propRpm, .flt s.gearRatio,
        .flt s.torqueLimit, .flt s.slsAirflow] := rfl
  rw [e2] at key2
  unfold readTpHeader
  simp only [readline]
  unfold Pen.line
  rw [key]
  have l6 : ([s.slsHp, s.turbineRpm, s.propRpm, s.gearRatio, s.torqueLimit, s.slsAirflow] :
    List ν).length = 6 := rfl
  rw [l6] at key2
  rw [key2]
  rfl

/-- **Property.**  A turboshaft deck is read back: the scalars of both lines and the three tables in the
order shaft power, fuel flow, tailpipe thrust. -/
theorem readTurboshaft_deck {c : Conv ν} (p : Pen ν c) {i j : List Char} {iprint : ℕ}
    (s : TpScalars ν) (hi : i.length = 5) (hj : j.length = 5) (hi' : c.int i = some s.throttleType)
    (hj' : c.int j = some iprint) {t f a : TableText ν} (ht : t.Ok c) (hf : f.Ok c) (ha : a.Ok c)
    (rest : List (List Char)) :
    readTurboshaft c (p.line ([cnt i s.throttleType, cnt j iprint, p.skip] ++
        [s.t4max, s.t4climb, s.t4cruise, s.t4idle, s.xsfc, s.cexp].map p.fld) ::
      p.line ([s.slsHp, s.turbineRpm, s.propRpm, s.gearRatio, s.torqueLimit, s.slsAirflow].map p.fld) ::
      (p.table true t ++ (p.table true f ++ (p.table true a ++ rest)))) =
      some (s, t.tidy, f.tidy, a.tidy) := by
  unfold readTurboshaft
  rw [readTpHeader_lines p s hi hj hi' hj']
  simp only [Option.bind_eq_bind, Option.bind_some]
  rw [readTable_table p true ht]
  simp only [Option.bind_some]
  rw [readTable_table p true hf]
  simp only [Option.bind_some]
  rw [readTable_table p true ha]
  rfl

/-! ### Files -/

/-- **Property.**  A deck is read from the path as given if something is there, else from the path in
the package; what is read is a file. -/
theorem source_spec (fs : FS) (name : String) :
    (∀ p, source fs name = .ok p →
      fs.isFile p = true ∧ fs.isThere p = true ∧
        (fs.isThere name = true ∧ p = name ∨ fs.isThere name = false ∧ p = fs.resource name)) ∧
    (source fs name = .error .notFound ↔
      fs.isThere name = false ∧ fs.isThere (fs.resource name) = false) := by
  unfold source
  cases h : fs.isThere name
  · cases h1 : fs.isThere (fs.resource name) <;> cases h2 : fs.isFile (fs.resource name) <;>
      simp_all
  · cases h2 : fs.isFile name <;> simp_all

/-- **Property.**  The default name of the output ends in csv and is never the name of the input. -/
theorem outName_ne (stem suffix : List Char) :
    outName stem suffix ≠ stem ++ suffix ∧ ∃ r, outName stem suffix = r ++ ['.', 'c', 's', 'v'] := by
  unfold outName
  split
  · rename_i h
    subst h
    refine ⟨fun e => ?_, stem ++ ['_', 'a', 'v', 'i', 'a', 'r', 'y'], ?_⟩
    · exact absurd (List.append_cancel_left e) (by decide)
    · rw [List.append_assoc]
      rfl
  · rename_i h
    exact ⟨fun e => h (List.append_cancel_left e).symm, stem, rfl⟩

end Verif.GaspIdle
