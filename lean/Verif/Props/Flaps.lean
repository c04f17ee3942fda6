import Verif.Model.Flaps
import Mathlib.Topology.Order.IntermediateValue
import Mathlib.Topology.Algebra.Order.Field
import Mathlib.Topology.Instances.Real.Lemmas
import Mathlib.Analysis.SpecialFunctions.Sqrt
import Mathlib.Tactic.FieldSimp
import Mathlib.Tactic.Ring
import Mathlib.Tactic.Linarith
import Mathlib.Tactic.NormNum
import Mathlib.Tactic.Positivity
import Mathlib.Tactic.LinearCombination

/-! ## C102: the flap model -/

namespace Verif.Flaps
open Set

/-! ### Tables with linear interpolation -/

/-- A condition on neighbouring points of a table. -/
def Seg (P : ℝ × ℝ → ℝ × ℝ → Prop) : List (ℝ × ℝ) → Prop
  | p :: q :: r => P p q ∧ Seg P (q :: r)
  | _ => True

/-- The grid increases strictly. -/
def Inc (t : List (ℝ × ℝ)) : Prop := Seg (fun p q => p.1 < q.1) t

theorem Inc.lt {p : ℝ × ℝ} {t : List (ℝ × ℝ)} (h : Inc (p :: t)) : ∀ q ∈ t, p.1 < q.1 := by
  induction t generalizing p with
  | nil => simp
  | cons a t ih =>
    intro q hq
    rcases List.mem_cons.1 hq with rfl | hq
    · exact h.1
    · exact h.1.trans (ih h.2 q hq)

theorem Inc.tail {p : ℝ × ℝ} {t : List (ℝ × ℝ)} (h : Inc (p :: t)) : Inc t := by
  cases t with
  | nil => trivial
  | cons a t => exact h.2

theorem line_left (p q : ℝ × ℝ) : line p q p.1 = p.2 := by simp [line]

theorem line_right {p q : ℝ × ℝ} (h : p.1 < q.1) : line p q q.1 = q.2 := by
  have : q.1 - p.1 ≠ 0 := (sub_pos.2 h).ne'
  unfold line
  field_simp
  ring

/-- The interpolation passes through every point of its table. -/
theorem lin_point {t : List (ℝ × ℝ)} (h : Inc t) : ∀ p ∈ t, lin t p.1 = p.2 := by
  induction t with
  | nil => simp
  | cons a t ih =>
    intro p hp
    match t, ih, h, hp with
    | [], _, _, hp =>
      rw [List.mem_singleton.1 hp, lin]
    | [b], _, h, hp =>
      rw [lin]
      rcases List.mem_cons.1 hp with rfl | hp
      · exact line_left _ _
      · rw [List.mem_singleton.1 hp]
        exact line_right h.1
    | b :: c :: s, ih, h, hp =>
      rw [lin]
      rcases List.mem_cons.1 hp with rfl | hp
      · rw [if_pos h.1.le]
        exact line_left _ _
      · by_cases hb : p.1 ≤ b.1
        · rw [if_pos hb]
          rcases List.mem_cons.1 hp with rfl | hp'
          · exact line_right h.1
          · exact absurd (Inc.lt h.2 p hp') (not_lt.2 hb)
        · rw [if_neg hb]
          exact ih h.2 p hp

theorem line_cont (p q : ℝ × ℝ) : Continuous (line p q) := by
  unfold line
  fun_prop

/-- The interpolation is continuous. -/
theorem lin_cont {t : List (ℝ × ℝ)} (h : Inc t) : Continuous (lin t) := by
  induction t with
  | nil => exact continuous_const
  | cons a t ih =>
    match t, ih, h with
    | [], _, _ => exact continuous_const
    | [b], _, _ => exact line_cont a b
    | b :: c :: s, ih, h =>
      have e : lin (a :: b :: c :: s) = fun x => if x ≤ b.1 then line a b x else lin (b :: c :: s) x := by
        funext x
        rw [lin]
      rw [e]
      refine Continuous.if_le (line_cont a b) (ih h.2) continuous_id continuous_const ?_
      intro x hx
      have hx' : x = b.1 := hx
      rw [hx', line_right h.1, lin_point h.2 b (by simp)]

theorem line_mem {p q : ℝ × ℝ} {a b x : ℝ} (h : p.1 < q.1) (hp : p.2 ∈ Icc a b) (hq : q.2 ∈ Icc a b)
    (hx : p.1 ≤ x) (hx' : x ≤ q.1) : line p q x ∈ Icc a b := by
  have hd : 0 < q.1 - p.1 := sub_pos.2 h
  have e : line p q x = p.2 * ((q.1 - x) / (q.1 - p.1)) + q.2 * ((x - p.1) / (q.1 - p.1)) := by
    unfold line; field_simp; ring
  have s : (q.1 - x) / (q.1 - p.1) + (x - p.1) / (q.1 - p.1) = 1 := by field_simp; ring
  have w1 : 0 ≤ (q.1 - x) / (q.1 - p.1) := div_nonneg (by linarith) hd.le
  have w2 : 0 ≤ (x - p.1) / (q.1 - p.1) := div_nonneg (by linarith) hd.le
  rw [e]
  generalize (q.1 - x) / (q.1 - p.1) = u at *
  generalize (x - p.1) / (q.1 - p.1) = v at *
  obtain ⟨h1, h2⟩ := hp
  obtain ⟨h3, h4⟩ := hq
  have hu : u = 1 - v := by linarith
  subst hu
  constructor <;> nlinarith

/-- Inside of the grid the interpolation stays within all bounds of its table. -/
theorem lin_within {t : List (ℝ × ℝ)} (h : Inc t) {a b x : ℝ} (hb : ∀ p ∈ t, p.2 ∈ Icc a b)
    (h1 : ∃ p ∈ t, p.1 ≤ x) (h2 : ∃ q ∈ t, x ≤ q.1) : lin t x ∈ Icc a b := by
  induction t with
  | nil => simp at h1
  | cons p t ih =>
    have hpx : p.1 ≤ x := by
      obtain ⟨q, hq, hqx⟩ := h1
      rcases List.mem_cons.1 hq with rfl | hq
      · exact hqx
      · exact (h.lt q hq).le.trans hqx
    match t, ih, h, hb, h2 with
    | [], _, _, hb, _ => exact hb p (by simp)
    | [q], _, h, hb, h2 =>
      rw [lin]
      refine line_mem h.1 (hb p (by simp)) (hb q (by simp)) hpx ?_
      obtain ⟨r, hr, hrx⟩ := h2
      rcases List.mem_cons.1 hr with rfl | hr
      · exact hrx.trans h.1.le
      · rwa [List.mem_singleton.1 hr] at hrx
    | q :: r :: s, ih, h, hb, h2 =>
      rw [lin]
      by_cases hq : x ≤ q.1
      · rw [if_pos hq]
        exact line_mem h.1 (hb p (by simp)) (hb q (by simp)) hpx hq
      · rw [if_neg hq]
        refine ih h.2 (fun y hy => hb y (List.mem_cons_of_mem _ hy)) ⟨q, by simp, (not_le.1 hq).le⟩ ?_
        obtain ⟨y, hy, hyx⟩ := h2
        rcases List.mem_cons.1 hy with rfl | hy
        · exact absurd (hyx.trans h.1.le) hq
        · exact ⟨y, hy, hyx⟩

/-- Grid and values increase strictly. -/
def Up (t : List (ℝ × ℝ)) : Prop := Seg (fun p q => p.1 < q.1 ∧ p.2 < q.2) t

theorem Up.inc {t : List (ℝ × ℝ)} (h : Up t) : Inc t := by
  induction t with
  | nil => trivial
  | cons p t ih =>
    cases t with
    | nil => trivial
    | cons q t => exact ⟨h.1.1, ih h.2⟩

theorem line_mono {p q : ℝ × ℝ} (h1 : p.1 < q.1) (h2 : p.2 < q.2) : StrictMono (line p q) := by
  intro u v huv
  have : 0 < (q.2 - p.2) / (q.1 - p.1) := div_pos (sub_pos.2 h2) (sub_pos.2 h1)
  unfold line
  nlinarith

/-- An increasing table is interpolated, and continued, by an increasing function. -/
theorem lin_mono {p q : ℝ × ℝ} {t : List (ℝ × ℝ)} (h : Up (p :: q :: t)) : StrictMono (lin (p :: q :: t)) := by
  induction t generalizing p q with
  | nil => exact line_mono h.1.1 h.1.2
  | cons r s ih =>
    have hl := line_mono h.1.1 h.1.2
    have hr := ih h.2
    have e1 : line p q q.1 = q.2 := line_right h.1.1
    have e2 : lin (q :: r :: s) q.1 = q.2 := lin_point h.inc.2 q (by simp)
    intro u v huv
    rw [lin, lin]
    by_cases hv : v ≤ q.1
    · rw [if_pos hv, if_pos (huv.le.trans hv)]
      exact hl huv
    · rw [if_neg hv]
      by_cases hu : u ≤ q.1
      · rw [if_pos hu]
        calc line p q u ≤ line p q q.1 := hl.monotone hu
          _ = lin (q :: r :: s) q.1 := by rw [e1, e2]
          _ < lin (q :: r :: s) v := hr (not_le.1 hv)
      · rw [if_neg hu]
        exact hr huv

/-- The slope between two points. -/
noncomputable def slope (p q : ℝ × ℝ) : ℝ := (q.2 - p.2) / (q.1 - p.1)

/-- The slope of `x` times the interpolation is positive at both ends of every piece between `lo` and `b`. -/
def UpMul (b : ℝ) : ℝ → List (ℝ × ℝ) → Prop
  | lo, [p, q] => p.1 < q.1 ∧ 0 < line p q lo + slope p q * lo ∧ 0 < line p q b + slope p q * b
  | lo, p :: q :: r :: s =>
    p.1 < q.1 ∧ 0 < line p q lo + slope p q * lo ∧ 0 < q.2 + slope p q * q.1 ∧ UpMul b q.1 (q :: r :: s)
  | _, _ => False

theorem UpMul.inc {b lo : ℝ} {t : List (ℝ × ℝ)} (h : UpMul b lo t) : Inc t := by
  induction t generalizing lo with
  | nil => trivial
  | cons p t ih =>
    rcases t with _ | ⟨q, _ | ⟨r, s⟩⟩
    · trivial
    · exact ⟨h.1, trivial⟩
    · exact ⟨h.1, ih h.2.2.2⟩

theorem mul_line_lt {p q : ℝ × ℝ} {lo b u v : ℝ} (h1 : 0 < line p q lo + slope p q * lo)
    (h2 : 0 < line p q b + slope p q * b) (hu : lo ≤ u) (huv : u < v) (hv : v ≤ b) :
    u * line p q u < v * line p q v := by
  have e : ∀ x, line p q x = line p q 0 + slope p q * x := by
    intro x; unfold line slope; ring
  rw [e lo] at h1
  rw [e b] at h2
  rw [e u, e v]
  generalize line p q 0 = c at *
  generalize slope p q = s at *
  have k : 0 < c + s * (u + v) := by
    rcases le_total 0 s with hs | hs
    · nlinarith
    · nlinarith
  nlinarith [mul_pos (sub_pos.2 huv) k]

/-- When the slopes are right, `x` times the interpolation increases strictly. -/
theorem mul_lin_mono {b lo : ℝ} {t : List (ℝ × ℝ)} (h : UpMul b lo t) :
    StrictMonoOn (fun x => x * lin t x) (Icc lo b) := by
  induction t generalizing lo with
  | nil => exact h.elim
  | cons p t ih =>
    rcases t with _ | ⟨q, _ | ⟨r, s⟩⟩
    · exact h.elim
    · intro u hu v hv huv
      exact mul_line_lt h.2.1 h.2.2 hu.1 huv hv.2
    · have hi := h.inc
      intro u hu v hv huv
      show u * lin (p :: q :: r :: s) u < v * lin (p :: q :: r :: s) v
      rw [lin, lin]
      have h3 : 0 < line p q q.1 + slope p q * q.1 := by rw [line_right h.1]; exact h.2.2.1
      by_cases hv' : v ≤ q.1
      · rw [if_pos hv', if_pos (huv.le.trans hv')]
        exact mul_line_lt h.2.1 h3 hu.1 huv hv'
      · rw [if_neg hv']
        have hv'' := not_le.1 hv'
        by_cases hu' : u ≤ q.1
        · rw [if_pos hu']
          have a1 : u * line p q u ≤ q.1 * line p q q.1 := by
            rcases hu'.eq_or_lt with e | hlt
            · rw [e]
            · exact (mul_line_lt h.2.1 h3 hu.1 hlt le_rfl).le
          have a2 : q.1 * lin (q :: r :: s) q.1 < v * lin (q :: r :: s) v :=
            ih h.2.2.2 ⟨le_rfl, hv''.le.trans hv.2⟩ ⟨hv''.le, hv.2⟩ hv''
          rw [line_right h.1] at a1
          rw [lin_point hi.2 q (by simp)] at a2
          exact a1.trans_lt a2
        · rw [if_neg hu']
          exact ih h.2.2.2 ⟨(not_le.1 hu').le, hu.2⟩ ⟨hv''.le, hv.2⟩ huv

/-! ### The tables -/

/-- All grids of the tables increase. -/
theorem tables_inc (k : FlapType) :
    Inc (vdel1 k) ∧ Inc vdel2 ∧ Inc vlam1 ∧ Inc vlam2 ∧ Inc vlam3 ∧ Inc (vlam4 k) ∧ Inc (vlam5 k) ∧ Inc (vlam6 k) ∧
      Inc vlam7 ∧ Inc vlam10 ∧ Inc vlam11 ∧ Inc vlam13 ∧ Inc vlam14 := by
  refine ⟨?_, ?_, ?_, ?_, ?_, ?_, ?_, ?_, ?_, ?_, ?_, ?_, ?_⟩
  · cases k <;> norm_num [Inc, Seg, vdel1, vdel1Plain, vdel1Other]
  · norm_num [Inc, Seg, vdel2]
  · norm_num [Inc, Seg, vlam1]
  · norm_num [Inc, Seg, vlam2]
  · norm_num [Inc, Seg, vlam3]
  · cases k <;> norm_num [Inc, Seg, vlam4, vlam4Plain, vlam4Other]
  · cases k <;> norm_num [Inc, Seg, vlam5, vlam5Plain, vlam5Slotted, vlam5Fowler]
  · cases k <;> norm_num [Inc, Seg, vlam6, vlam6Plain, vlam6Slotted, vlam6Fowler]
  · norm_num [Inc, Seg, vlam7]
  · norm_num [Inc, Seg, vlam10]
  · norm_num [Inc, Seg, vlam11]
  · norm_num [Inc, Seg, vlam13]
  · norm_num [Inc, Seg, vlam14]

theorem vlam6_zero (k : FlapType) : lin (vlam6 k) 0 = 0 :=
  lin_point (tables_inc k).2.2.2.2.2.2.2.1 (0, 0) (by cases k <;> simp [vlam6, vlam6Plain, vlam6Slotted, vlam6Fowler])

theorem vlam10_zero : lin vlam10 0 = 0 :=
  lin_point (tables_inc .plain).2.2.2.2.2.2.2.2.2.1 (0, 0) (by simp [vlam10])

/-- Without deflection the flaps add nothing, whatever the wing: no lift, no drag, and with the slats in as well the
maximum lift is that of the clean wing. -/
theorem no_deflection (k : FlapType) (g : Geom) (s : Setting) (v13 v14 : ℝ) (hf : s.flap = 0) :
    deltaCL k g s v13 v14 = 0 ∧ deltaCD k g s = 0 ∧
    (s.slat = 0 → clMax k g s v13 v14 = s.maxLiftRef * lin vlam1 g.AR * lin vlam2 g.tc * v13 * v14 + fusLiftOf g) := by
  have h2 : lin vdel2 0 = 0 := lin_point (tables_inc k).2.1 (0, 0) (by simp [vdel2])
  refine ⟨?_, ?_, ?_⟩
  · unfold deltaCL
    rw [hf, vlam6_zero]
    ring
  · unfold deltaCD
    rw [hf, zero_div, h2]
    ring
  · intro hs
    unfold clMax basicLift
    rw [hf, hs, zero_div, vlam6_zero, vlam10_zero]
    ring

/-- Flaps without chord or span add nothing either. -/
theorem no_flap (k : FlapType) (g : Geom) (s : Setting) (v13 v14 : ℝ) (h : g.flapChord = 0 ∨ g.flapSpan = 0) :
    deltaCL k g s v13 v14 = 0 ∧ deltaCD k g s = 0 := by
  have t := tables_inc k
  rcases h with h | h
  · have a : lin (vlam5 k) 0 = 0 := lin_point t.2.2.2.2.2.2.1 (0, 0)
      (by cases k <;> simp [vlam5, vlam5Plain, vlam5Slotted, vlam5Fowler])
    have b : lin (vdel1 k) 0 = 0 := lin_point t.1 (0, 0) (by cases k <;> simp [vdel1, vdel1Plain, vdel1Other])
    unfold deltaCL deltaCD
    rw [h, a, b]
    constructor <;> ring
  · have a : lin vlam7 0 = 0 := lin_point t.2.2.2.2.2.2.2.2.1 (0, 0) (by simp [vlam7])
    have b : lin2 vdel3 0 g.taper = 0 := by
      unfold lin2 vdel3
      have e : lin [((0 : ℝ), (0 : ℝ)), (33 / 100, 0), (1, 0)] g.taper = 0 := by
        simp only [lin, line]
        split <;> simp
      simp only [List.map_cons, List.map_nil, e]
      rw [lin, if_pos (by norm_num)]
      simp [line]
    unfold deltaCL deltaCD
    rw [h, a, b]
    constructor <;> ring

/-- More deflection always means more drag. -/
theorem drag_grows (k : FlapType) (g : Geom) (s : Setting) (ho : 0 < s.flapOpt)
    (h : 0 < s.flapDrag * lin (vdel1 k) g.flapChord * lin2 vdel3 g.flapSpan g.taper * vdel4 g * vdel5 g) :
    StrictMono fun x => deltaCD k g { s with flap := x } := by
  have m : StrictMono (lin vdel2) := lin_mono (by norm_num [Up, Seg])
  intro u v huv
  have := mul_lt_mul_of_pos_left (m (div_lt_div_of_pos_right huv ho)) h
  show s.flapDrag * lin (vdel1 k) g.flapChord * lin vdel2 (u / s.flapOpt) * lin2 vdel3 g.flapSpan g.taper * vdel4 g
    * vdel5 g < s.flapDrag * lin (vdel1 k) g.flapChord * lin vdel2 (v / s.flapOpt) * lin2 vdel3 g.flapSpan g.taper
    * vdel4 g * vdel5 g
  linarith

/-- The factor by the sweep of the hinge line is positive and at most one. -/
theorem vdel4_mem (g : Geom) : 0 < vdel4 g ∧ vdel4 g ≤ 1 :=
  ⟨Real.cos_arctan_pos _, Real.cos_le_one _⟩

/-- The slats span what the body leaves, less a hundredth. -/
theorem slatSpan_eq (g : Geom) : slatSpan g + bodyToSpan g = 99 / 100 ∧ vdel5 g = slatSpan g + 1 / 100 := by
  unfold slatSpan vdel5 bodyToSpan
  constructor <;> ring

/-! ### Optimum deflections -/

/-- The optimum deflection of plain, split and single slotted flaps gives the most lift in the table. -/
theorem optimum_partial {k : FlapType} (hk : k = .plain ∨ k = .split ∨ k = .single) {x : ℝ} (h0 : 0 ≤ x) (h1 : x ≤ 60) :
    lin (vlam6 k) x ≤ lin (vlam6 k) (optimum k) := by
  have t := (tables_inc k).2.2.2.2.2.2.2.1
  have e : lin (vlam6 k) (optimum k) = 1 := by
    refine lin_point t (optimum k, 1) ?_
    rcases hk with rfl | rfl | rfl <;> simp [vlam6, vlam6Plain, vlam6Slotted, optimum]
  rw [e]
  refine (lin_within t (a := 0) (b := 1) ?_ ?_ ?_).2
  · rcases hk with rfl | rfl | rfl <;> intro p hp <;> fin_cases hp <;> norm_num
  · exact ⟨(0, 0), by rcases hk with rfl | rfl | rfl <;> simp [vlam6, vlam6Plain, vlam6Slotted], h0⟩
  · rcases hk with rfl | rfl | rfl
    · exact ⟨(60, 1), by simp [vlam6, vlam6Plain], h1⟩
    · exact ⟨(60, 1), by simp [vlam6, vlam6Plain], h1⟩
    · exact ⟨(60, 3 / 4), by simp [vlam6, vlam6Slotted], h1⟩

/-- That of the other types does not: at 40 degrees they give more lift. -/
theorem optimum_violated {k : FlapType} (hk : k ≠ .plain ∧ k ≠ .split ∧ k ≠ .single) :
    lin (vlam6 k) (optimum k) < lin (vlam6 k) 40 := by
  have t := (tables_inc k).2.2.2.2.2.2.2.1
  obtain ⟨h1, h2, h3⟩ := hk
  cases k <;> simp only [ne_eq, not_true_eq_false, reduceCtorEq, not_false_eq_true] at h1 h2 h3
  · rw [lin_point t (40, 1) (by simp [vlam6, vlam6Slotted]),
      lin_point t (optimum .double, 17 / 20) (by simp [vlam6, vlam6Slotted, optimum])]
    norm_num
  · rw [lin_point t (40, 1) (by simp [vlam6, vlam6Slotted]),
      lin_point t (optimum .triple, 17 / 20) (by simp [vlam6, vlam6Slotted, optimum])]
    norm_num
  · rw [lin_point t (40, 111 / 100) (by simp [vlam6, vlam6Fowler]),
      lin_point t (optimum .fowler, 1) (by simp [vlam6, vlam6Fowler, optimum])]
    norm_num
  · rw [lin_point t (40, 111 / 100) (by simp [vlam6, vlam6Fowler]),
      lin_point t (optimum .doubleFowler, 1) (by simp [vlam6, vlam6Fowler, optimum])]
    norm_num

/-- The optimum deflection of the slats gives the most lift in the table. -/
theorem slat_optimum {x : ℝ} (h0 : 0 ≤ x) (h1 : x ≤ 17 / 10) : lin vlam10 x ≤ lin vlam10 1 := by
  have t := (tables_inc .plain).2.2.2.2.2.2.2.2.2.1
  rw [lin_point t (1, 1) (by simp [vlam10])]
  refine (lin_within t (a := 0) (b := 1) ?_ ⟨(0, 0), by simp [vlam10], h0⟩ ⟨(17 / 10, 11 / 50), by simp [vlam10], h1⟩).2
  intro p hp
  fin_cases hp <;> norm_num

/-- Beyond the table the last line is continued: Fowler flaps deflected further than 63 degrees take lift away. -/
theorem extrapolation_violated {x : ℝ} (hx : 63 ≤ x) : lin (vlam6 .fowler) x < 0 := by
  show lin vlam6Fowler x < 0
  unfold vlam6Fowler
  simp only [lin]
  repeat rw [if_neg (by norm_num; linarith)]
  unfold line
  norm_num
  linarith

/-! ### The loop of lift, Mach and Reynolds number -/

theorem vlam13_up {b : ℝ} : UpMul b 0 vlam13 := by
  norm_num [UpMul, vlam13, line, slope]

theorem vlam14_up : UpMul 1 0 vlam14 := by
  norm_num [UpMul, vlam14, line, slope]

/-- The wing loading, over pressure, which the wing carries at a Mach number. -/
noncomputable def carried (A f c M : ℝ) : ℝ := M ^ 2 * (A * lin vlam13 (c * M) * lin vlam14 M + f)

theorem carried_cont (A f c : ℝ) : Continuous (carried A f c) := by
  have h13 := lin_cont (tables_inc .plain).2.2.2.2.2.2.2.2.2.2.2.1
  have h14 := lin_cont (tables_inc .plain).2.2.2.2.2.2.2.2.2.2.2.2
  unfold carried
  exact (continuous_pow 2).mul (((continuous_const.mul (h13.comp (continuous_const.mul continuous_id))).mul h14).add
    continuous_const)

/-- Faster flight below the speed of sound always carries more. -/
theorem carried_mono {A f c : ℝ} (hA : 0 < A) (hf : 0 ≤ f) (hc : 0 < c) : StrictMonoOn (carried A f c) (Icc 0 1) := by
  intro u hu v hv huv
  have a1 : c * u * lin vlam13 (c * u) < c * v * lin vlam13 (c * v) :=
    mul_lin_mono (b := c * v) vlam13_up ⟨mul_nonneg hc.le hu.1, (mul_lt_mul_of_pos_left huv hc).le⟩
      ⟨mul_nonneg hc.le hv.1, le_rfl⟩ (mul_lt_mul_of_pos_left huv hc)
  have a2 : u * lin vlam14 u < v * lin vlam14 v := mul_lin_mono vlam14_up hu hv huv
  have z1 : 0 ≤ c * u * lin vlam13 (c * u) := by
    rcases hu.1.eq_or_lt with e | hlt
    · rw [← e]; simp
    · have := mul_lin_mono (b := c * u) vlam13_up ⟨le_rfl, (mul_pos hc hlt).le⟩ ⟨(mul_pos hc hlt).le, le_rfl⟩
        (mul_pos hc hlt)
      simp only [zero_mul] at this
      exact this.le
  have z2 : 0 ≤ u * lin vlam14 u := by
    rcases hu.1.eq_or_lt with e | hlt
    · rw [← e]; simp
    · have := mul_lin_mono vlam14_up ⟨le_rfl, zero_le_one⟩ hu hlt
      simp only [zero_mul] at this
      exact this.le
  have k : (c * u * lin vlam13 (c * u)) * (u * lin vlam14 u) < (c * v * lin vlam13 (c * v)) * (v * lin vlam14 v) :=
    mul_lt_mul'' a1 a2 z1 z2
  have sq : u ^ 2 ≤ v ^ 2 := pow_le_pow_left₀ hu.1 huv.le 2
  have e : ∀ M, c * carried A f c M = A * ((c * M * lin vlam13 (c * M)) * (M * lin vlam14 M)) + c * (f * M ^ 2) := by
    intro M; unfold carried; ring
  refine lt_of_mul_lt_mul_left ?_ hc.le
  rw [e, e]
  have := mul_lt_mul_of_pos_left k hA
  have := mul_le_mul_of_nonneg_left (mul_le_mul_of_nonneg_left sq hf) hc.le
  linarith

/-- A converged state with positive lift is a Mach number at which the wing carries its load. -/
theorem converged_iff {k : FlapType} {g : Geom} {s : Setting} {a : Air} {cl mach : ℝ} (hw : 0 < a.wingLoading)
    (hP : 0 < a.P) (hcl : 0 < cl) :
    Converged k g s a cl mach ↔ 0 < mach ∧
      carried (basicLift k g s) (fusLiftOf g) (g.avgChord * a.sos / a.visc / 100000) mach
        = a.wingLoading / (7 / 10) / a.P ∧
      cl = a.wingLoading / (7 / 10) / a.P / mach ^ 2 := by
  have er : reynolds a g mach = g.avgChord * a.sos / a.visc / 100000 * mach := by unfold reynolds; ring
  have em : machOf a cl = √(a.wingLoading / (7 / 10) / a.P / cl) := by
    unfold machOf; congr 1; ring
  have hq : 0 < a.wingLoading / (7 / 10) / a.P := by positivity
  set Q := a.wingLoading / (7 / 10) / a.P
  have key : mach = machOf a cl ↔ 0 < mach ∧ cl = Q / mach ^ 2 := by
    rw [em]
    constructor
    · intro h
      have hm : 0 < mach := by rw [h]; exact Real.sqrt_pos.2 (div_pos hq hcl)
      refine ⟨hm, ?_⟩
      have : mach ^ 2 = Q / cl := by rw [h]; exact Real.sq_sqrt (div_pos hq hcl).le
      rw [this]
      field_simp
    · rintro ⟨hm, h⟩
      rw [h, show Q / (Q / mach ^ 2) = mach ^ 2 by field_simp, Real.sqrt_sq hm.le]
  constructor
  · rintro ⟨h1, h2⟩
    obtain ⟨hm, hc⟩ := key.1 h2
    refine ⟨hm, ?_, hc⟩
    rw [er] at h1
    show mach ^ 2 * clMax k g s _ _ = Q
    rw [← h1, hc]
    field_simp
  · rintro ⟨hm, h1, hc⟩
    refine ⟨?_, key.2 ⟨hm, hc⟩⟩
    rw [er, hc]
    have h1' : mach ^ 2 * clMax k g s (lin vlam13 (g.avgChord * a.sos / a.visc / 100000 * mach)) (lin vlam14 mach) = Q := h1
    rw [← h1']
    field_simp

/-- The loop has at most one subsonic solution. -/
theorem converged_unique {k : FlapType} {g : Geom} {s : Setting} {a : Air} {cl mach cl' mach' : ℝ}
    (hw : 0 < a.wingLoading) (hP : 0 < a.P) (hA : 0 < basicLift k g s) (hf : 0 ≤ fusLiftOf g)
    (hc : 0 < g.avgChord * a.sos / a.visc / 100000) (h1 : 0 < cl) (h2 : 0 < cl') (m1 : mach ≤ 1) (m2 : mach' ≤ 1)
    (c1 : Converged k g s a cl mach) (c2 : Converged k g s a cl' mach') : cl = cl' ∧ mach = mach' := by
  obtain ⟨p1, q1, r1⟩ := (converged_iff hw hP h1).1 c1
  obtain ⟨p2, q2, r2⟩ := (converged_iff hw hP h2).1 c2
  have e : mach = mach' := (carried_mono hA hf hc).injOn ⟨p1.le, m1⟩ ⟨p2.le, m2⟩ (q1.trans q2.symm)
  exact ⟨by rw [r1, r2, e], e⟩

/-- It has one exactly when the wing can carry its load at the speed of sound. -/
theorem converged_exists_iff {k : FlapType} {g : Geom} {s : Setting} {a : Air}
    (hw : 0 < a.wingLoading) (hP : 0 < a.P) (hA : 0 < basicLift k g s) (hf : 0 ≤ fusLiftOf g)
    (hc : 0 < g.avgChord * a.sos / a.visc / 100000) :
    (∃ cl mach, 0 < cl ∧ mach ≤ 1 ∧ Converged k g s a cl mach) ↔
      a.wingLoading / (7 / 10) / a.P
        ≤ carried (basicLift k g s) (fusLiftOf g) (g.avgChord * a.sos / a.visc / 100000) 1 := by
  have hq : 0 < a.wingLoading / (7 / 10) / a.P := by positivity
  have mono := carried_mono hA hf hc
  constructor
  · rintro ⟨cl, mach, hcl, hm, hcv⟩
    obtain ⟨p, q, -⟩ := (converged_iff hw hP hcl).1 hcv
    rw [← q]
    exact mono.monotoneOn ⟨p.le, hm⟩ ⟨zero_le_one, le_rfl⟩ hm
  · intro h
    have c0 : carried (basicLift k g s) (fusLiftOf g) (g.avgChord * a.sos / a.visc / 100000) 0 = 0 := by
      unfold carried; ring
    obtain ⟨m, hm, hv⟩ := intermediate_value_Icc (zero_le_one (α := ℝ))
      (carried_cont (basicLift k g s) (fusLiftOf g) (g.avgChord * a.sos / a.visc / 100000)).continuousOn
      ⟨by rw [c0]; exact hq.le, h⟩
    have m0 : 0 < m := by
      rcases hm.1.eq_or_lt with e | hlt
      · rw [← e, c0] at hv
        exact absurd hv hq.ne
      · exact hlt
    have hcl : 0 < a.wingLoading / (7 / 10) / a.P / m ^ 2 := by positivity
    exact ⟨_, m, hcl, hm.2, (converged_iff hw hP hcl).2 ⟨m0, hv, rfl⟩⟩

/-! ### A case which meets the hypotheses -/

/-- A wing without sweep, flaps and slats in. -/
noncomputable def exGeom : Geom :=
  ⟨0, 12, 3 / 10, 1 / 3, 10, 1, 1 / 10, 8, 0, 1, 10, 0, 1 / 10, 13 / 20, 2⟩

/-- See `exGeom`. -/
noncomputable def exSet : Setting := ⟨0, 20, 0, 40, 3 / 2, 1, 1, 1 / 10⟩

theorem exGeom_lift (k : FlapType) : basicLift k exGeom exSet = 3 / 2 ∧ 0 ≤ fusLiftOf exGeom := by
  have t := tables_inc k
  constructor
  · unfold basicLift
    have e1 : lin vlam1 exGeom.AR = 1 := lin_point t.2.2.1 (12, 1) (by simp [vlam1])
    have e2 : lin vlam2 exGeom.tc = 1 := lin_point t.2.2.2.1 (1 / 10, 1) (by simp [vlam2])
    have e3 : lin (vlam6 k) exSet.flap = 0 := vlam6_zero k
    have e4 : lin vlam10 (exSet.slat / exSet.slatOpt) = 0 := by
      show lin vlam10 (0 / 20) = 0
      rw [zero_div]; exact vlam10_zero
    rw [e1, e2, e3, e4]
    simp [exSet]
  · have b : bodyToSpan exGeom = 1 / 20 := by
      unfold bodyToSpan dbale exGeom
      norm_num
    have c : chordToBody exGeom = 1 / 10 := by norm_num [chordToBody, exGeom]
    unfold fusLiftOf lin2
    rw [b, c]
    refine le_of_le_of_eq (b := (23 / 500 : ℝ)) (by norm_num) (lin_point ?_ (1 / 20, 23 / 500) ?_).symm
    · norm_num [Inc, Seg, fusLift]
    · norm_num [fusLift, lin, line]

example (k : FlapType) : ∃ cl mach, 0 < cl ∧ mach ≤ 1 ∧ Converged k exGeom exSet ⟨1116, 100, 2116, 1 / 5000⟩ cl mach := by
  obtain ⟨h1, h2⟩ := exGeom_lift k
  refine (converged_exists_iff (by norm_num) (by norm_num) (by rw [h1]; norm_num) h2 (by norm_num [exGeom])).2 ?_
  rw [h1]
  unfold carried
  have a : lin vlam14 1 = 33 / 50 := lin_point (tables_inc k).2.2.2.2.2.2.2.2.2.2.2.2 (1, 33 / 50) (by simp [vlam14])
  have b : (7 / 10 : ℝ) ≤ lin vlam13 (exGeom.avgChord * 1116 / (1 / 5000) / 100000 * 1) :=
    (lin_within (tables_inc k).2.2.2.2.2.2.2.2.2.2.2.1 (a := 7 / 10) (b := 2)
      (by intro p hp; fin_cases hp <;> norm_num) ⟨(1, 7 / 10), by simp [vlam13], by norm_num [exGeom]⟩
      ⟨(10000, 9 / 10), by simp [vlam13], by norm_num [exGeom]⟩).1
  rw [a]
  norm_num at b ⊢
  nlinarith

/-- The lift increment is proportional to each of the two corrections by Mach and Reynolds number. -/
theorem deltaCL_scale (k : FlapType) (g : Geom) (s : Setting) (v13 v14 a b : ℝ) :
    deltaCL k g s (a * v13) (b * v14) = a * b * deltaCL k g s v13 v14 := by
  unfold deltaCL
  ring

end Verif.Flaps
