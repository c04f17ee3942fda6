import Verif.Model.BwbCabin
import Verif.Props.SmoothMath
import Mathlib.Analysis.SpecialFunctions.Trigonometric.Deriv
import Mathlib.Analysis.SpecialFunctions.Trigonometric.ComplexDeriv
import Mathlib.Analysis.Real.Pi.Bounds
import Mathlib.Tactic.NormNum
import Mathlib.Tactic.Linarith
import Mathlib.Tactic.Ring
import Mathlib.Tactic.FieldSimp
import Mathlib.Tactic.Positivity

/-! # Properties of the cabin layout of a blended wing body -/

namespace Verif.BwbCabin
open Real

/-- The simple layout asks for a positive length and width. -/
theorem simple_ok (s : Simple) : (∃ r, s.compute = .ok r) ↔ 0 < s.len ∧ 0 < s.width := by
  simp only [Simple.compute]
  split_ifs with h h1
  · simp; intro; linarith
  · simp; intro; linarith
  · simp only [Except.ok.injEq, exists_eq', true_iff]
    constructor <;> linarith

theorem simple_err (s : Simple) (h : s.len ≤ 0 ∨ s.width ≤ 0) : s.compute = .error .valueError := by
  simp only [Simple.compute]
  split_ifs <;> first | rfl | (rcases h with h | h <;> contradiction)

/-- The cabin is a trapezoid: its sides differ by the swept part and its area is the mean side times the width. -/
theorem simple_geometry {s : Simple} {r : SimpleOut} (h : s.compute = .ok r) (hr : s.root ≠ 0) :
    r.cabin = s.cl * s.len ∧ r.cabin - r.chord * s.root = tan (s.sweep / 57.296) * (s.width / 2) ∧
    r.area = s.width * ((r.cabin + r.chord * s.root) / 2) ∧ r.height = s.tc * s.len := by
  simp only [Simple.compute] at h
  split_ifs at h
  cases h
  simp only [Simple.cabin, Simple.chord, Simple.sidewall, Simple.area, Simple.height, Simple.tanSweep]
  refine ⟨trivial, ?_, ?_, trivial⟩
  · field_simp; ring
  · field_simp

/-- Bays of the nominal width cover the width and half a bay more, unless their number is limited. -/
theorem simple_bays (s : Simple) (hb : 0 < s.bay) :
    (0 < s.maxBays → s.bays ≤ s.maxBays) ∧
    (s.maxBays ≤ 0 ∨ s.bays < s.maxBays → s.width + s.bay / 2 ≤ s.bays * s.bay ∧ s.bays * s.bay < s.width + 3 * s.bay / 2) := by
  have hc := Int.le_ceil (0.5 + s.width / s.bay)
  have hd := Int.ceil_lt_add_one (0.5 + s.width / s.bay)
  have key : s.width + s.bay / 2 ≤ (⌈0.5 + s.width / s.bay⌉ : ℤ) * s.bay ∧
      (⌈0.5 + s.width / s.bay⌉ : ℤ) * s.bay < s.width + 3 * s.bay / 2 := by
    have e : s.width / s.bay * s.bay = s.width := div_mul_cancel₀ _ hb.ne'
    have a := mul_le_mul_of_nonneg_right hc hb.le
    have b := mul_lt_mul_of_pos_right hd hb
    constructor <;> nlinarith
  simp only [Simple.bays]
  split_ifs with h
  · refine ⟨fun _ => le_rfl, fun h1 => ?_⟩
    rcases h1 with h1 | h1
    · omega
    · exact absurd h1 (lt_irrefl _)
  · exact ⟨fun h1 => by omega, fun _ => key⟩

/-- The output is above the number of bays by less than a half, but never equal to it. -/
theorem simple_bays_out {s : Simple} {r : SimpleOut} (h : s.compute = .ok r) :
    (s.bays : ℝ) < r.bays ∧ r.bays < s.bays + 1 / 2 := by
  simp only [Simple.compute] at h
  split_ifs at h
  cases h
  have hr := smoothIntTanh_range (s.bays : ℝ) 20
  simp only [Int.floor_intCast] at hr
  refine ⟨hr.1, ?_⟩
  simp only [smoothIntTanh, Int.floor_intCast, sub_self]
  have : tanh (20 * (0 - 0.5)) < 0 := by
    rw [tanh_eq_sinh_div_cosh]
    exact div_neg_of_neg_of_pos (sinh_neg_iff.2 (by norm_num)) (cosh_pos _)
  linarith

/-- Two bays of 12 ft are enough for 24 ft: three are counted. -/
theorem simple_bays_minimal_violated : ∃ s : Simple, 0 < s.len ∧ s.width = 2 * s.bay ∧ s.maxBays = 0 ∧ s.bays = 3 := by
  refine ⟨⟨100, 24, 45, 0.1, 0.7, 0.7, 12, 0⟩, by norm_num, by norm_num, rfl, ?_⟩
  simp only [Simple.bays]
  rw [if_neg (by norm_num)]
  rw [Int.ceil_eq_iff]
  norm_num

theorem set_self (s : Simple) (w : Wrt) : s.set w (s.val w) = s := by cases w <;> rfl

theorem tan_deriv {x : ℝ} (h : cos (x / 57.296) ≠ 0) :
    HasDerivAt (fun t => tan (t / 57.296)) (1 / cos (x / 57.296) ^ 2 * (1 / 57.296)) x :=
  HasDerivAt.comp (h₂ := tan) (h := fun t : ℝ => t / 57.296) x (hasDerivAt_tan h) ((hasDerivAt_id' x).div_const 57.296)

theorem cabin_deriv (s : Simple) (w : Wrt) : HasDerivAt (fun t => (s.set w t).cabin) (s.J .cabin w) (s.val w) := by
  cases w
  case len => exact ((hasDerivAt_id' s.len).const_mul s.cl).congr_deriv (by simp [Simple.J])
  case cl => exact ((hasDerivAt_id' s.cl).mul_const s.len).congr_deriv (by simp [Simple.J])
  all_goals exact hasDerivAt_const _ s.cabin

/-- Derivative of the sidewall, which the outputs share. -/
noncomputable def dSide (s : Simple) : Wrt → ℝ
  | .len => s.cl
  | .cl => s.len
  | .width => -s.tanSweep / 2
  | .sweep => -s.width / s.fact1 / 57.296 / 2
  | _ => 0

theorem side_deriv (s : Simple) (w : Wrt) (h : cos (s.sweep / 57.296) ≠ 0) :
    HasDerivAt (fun t => (s.set w t).sidewall) (dSide s w) (s.val w) := by
  cases w
  case len =>
    exact (((hasDerivAt_id' s.len).const_mul s.cl).sub_const (s.tanSweep * s.width / 2)).congr_deriv (by simp [dSide])
  case cl =>
    exact (((hasDerivAt_id' s.cl).mul_const s.len).sub_const (s.tanSweep * s.width / 2)).congr_deriv (by simp [dSide])
  case width =>
    exact ((((hasDerivAt_id' s.width).const_mul s.tanSweep).div_const 2).const_sub s.cabin).congr_deriv (by simp [dSide]; ring)
  case sweep =>
    refine ((((tan_deriv h).mul_const s.width).div_const 2).const_sub s.cabin).congr_deriv ?_
    simp only [dSide, Simple.fact1]
    field_simp
  all_goals exact hasDerivAt_const _ s.sidewall

/-- Every partial of the simple layout is exact, where the sweep is not a right angle. -/
theorem simple_partials (s : Simple) (o : Of) (w : Wrt) (h : cos (s.sweep / 57.296) ≠ 0) (hr : s.root ≠ 0) :
    HasDerivAt (fun t => (s.set w t).out o) (s.J o w) (s.val w) := by
  cases o
  case cabin => exact cabin_deriv s w
  case height =>
    cases w
    case len => exact ((hasDerivAt_id' s.len).const_mul s.tc).congr_deriv (by simp [Simple.J])
    case tc => exact ((hasDerivAt_id' s.tc).mul_const s.len).congr_deriv (by simp [Simple.J])
    all_goals exact hasDerivAt_const _ s.height
  case chord =>
    have hs := side_deriv s w h
    cases w
    case root =>
      refine (((hasDerivAt_const s.root s.sidewall).div (hasDerivAt_id' s.root) hr)).congr_deriv ?_
      simp [Simple.J]
    case tc => exact hasDerivAt_const _ s.chord
    all_goals
      refine (hs.div_const s.root).congr_deriv ?_
      simp only [dSide, Simple.J]
  case area =>
    have hs := side_deriv s w h
    have hc := cabin_deriv s w
    cases w
    case width =>
      refine ((((hc.fun_add hs).fun_mul (hasDerivAt_id' s.width)).div_const 2)).congr_deriv ?_
      simp only [Simple.J, dSide, Simple.set, Simple.sidewall, Simple.cabin, Simple.tanSweep, Simple.val]
      ring
    case root => exact hasDerivAt_const _ s.area
    case tc => exact hasDerivAt_const _ s.area
    all_goals
      refine ((((hc.fun_add hs).mul_const s.width).div_const 2)).congr_deriv ?_
      simp only [Simple.J, dSide]
      ring

/-- A body of 120 by 60 ft meets the hypotheses. -/
example : let s : Simple := ⟨120, 60, 45, 0.15, 0.7, 0.65, 12, 0⟩
    cos (s.sweep / 57.296) ≠ 0 ∧ s.root ≠ 0 ∧ s.bays = 6 ∧ ∃ r, s.compute = .ok r := by
  refine ⟨(cos_pos_of_mem_Ioo ⟨?_, ?_⟩).ne', by norm_num, ?_, (simple_ok _).2 ⟨by norm_num, by norm_num⟩⟩
  · have := Real.pi_gt_three; norm_num; linarith
  · have := Real.pi_gt_three; norm_num; linarith
  · simp only [Simple.bays]
    rw [if_neg (by norm_num), Int.ceil_eq_iff]
    norm_num

/-! ## The detailed layout -/

theorem orDefault_pos {x d : ℝ} (hd : 0 < d) : 0 < orDefault x d := by
  simp only [orDefault]; split_ifs <;> linarith

theorem orDefault_given {x d : ℝ} (hx : 0 < x) : orDefault x d = x := by
  simp only [orDefault]; rw [if_neg (by linarith)]

/-- A seat takes its pitch times its share of a nominal bay. -/
theorem seat_area (c : Cls) {a p : ℝ} (ha : 0 < a) (hp : 0 < p) :
    0 < c.seat a p ∧ c.seat a p * orDefault c.abreast a = 12 * (orDefault c.pitch p / 12) := by
  have h1 := orDefault_pos (x := c.abreast) ha
  have h2 := orDefault_pos (x := c.pitch) hp
  refine ⟨by unfold Cls.seat; positivity, ?_⟩
  unfold Cls.seat
  field_simp

/-- Adding 0.99 before truncation rounds up, for every number of passengers per lavatory used. -/
theorem units_ceil (n d : ℕ) (hd : 0 < d) (h : d ≤ 100) : units n d = ⌈(n : ℝ) / d⌉ := by
  have hd' : (0 : ℝ) < d := by exact_mod_cast hd
  have h' : (d : ℝ) ≤ 100 := by exact_mod_cast h
  rw [units, Int.floor_eq_iff]
  set c := ⌈(n : ℝ) / d⌉ with hc
  have h1 := Int.le_ceil ((n : ℝ) / d)
  have h2 := Int.ceil_lt_add_one ((n : ℝ) / d)
  rw [← hc] at h1 h2
  constructor
  · -- `c * d < n + d` over the integers gives `c * d + 1 ≤ n + d`
    have h3 : (c : ℝ) * d < n + d := by
      have := mul_lt_mul_of_pos_right h2 hd'
      rwa [add_mul, div_mul_cancel₀ _ hd'.ne', one_mul] at this
    have h4 : c * (d : ℤ) < n + d := by exact_mod_cast h3
    have h5 : c * (d : ℤ) + 1 ≤ n + d := h4
    have h6 : (c : ℝ) * d + 1 ≤ n + d := by exact_mod_cast h5
    have h7 : (c : ℝ) ≤ (n + d - 1) / d := by rw [le_div_iff₀ hd']; linarith
    have h8 : ((n : ℝ) + d - 1) / d = n / d + 1 - 1 / d := by field_simp
    have h9 : (1 : ℝ) / 100 ≤ 1 / d := one_div_le_one_div_of_le hd' h'
    rw [h8] at h7
    linarith
  · linarith

/-- Lavatories for every 16, 24 and 40 passengers begun; six tenths of them galleys and four tenths closets, rounded up. -/
theorem lavs_spec (s : Seats) : s.lavs = ⌈(s.first.n : ℝ) / 16⌉ + ⌈(s.business.n : ℝ) / 24⌉ + ⌈(s.economy.n : ℝ) / 40⌉ := by
  simp only [Seats.lavs]
  have h1 := units_ceil s.first.n 16 (by norm_num) (by norm_num)
  have h2 := units_ceil s.business.n 24 (by norm_num) (by norm_num)
  have h3 := units_ceil s.economy.n 40 (by norm_num) (by norm_num)
  push_cast at h1 h2 h3
  rw [h1, h2, h3]

theorem lavs_nonneg (s : Seats) : 0 ≤ s.lavs := by
  rw [lavs_spec]
  have : ∀ (n : ℕ) (d : ℝ), 0 < d → 0 ≤ ⌈(n : ℝ) / d⌉ := fun n d hd => Int.ceil_nonneg (by positivity)
  have h1 := this s.first.n 16 (by norm_num)
  have h2 := this s.business.n 24 (by norm_num)
  have h3 := this s.economy.n 40 (by norm_num)
  omega

theorem service_spec (s : Seats) : ∃ L : ℕ, s.lavs = L ∧
    s.service = 18 * L + 18 * ⌈(3 * L : ℝ) / 5⌉ + 6 * ⌈(2 * L : ℝ) / 5⌉ := by
  obtain ⟨L, hL⟩ := Int.eq_ofNat_of_zero_le (lavs_nonneg s)
  refine ⟨L, hL, ?_⟩
  have h1 := units_ceil (3 * L) 5 (by norm_num) (by norm_num)
  have h2 := units_ceil (2 * L) 5 (by norm_num) (by norm_num)
  simp only [units] at h1 h2
  push_cast at h1 h2
  have e1 : (0.99 : ℝ) + 0.6 * ((L : ℤ) : ℝ) = 0.99 + 3 * L / 5 := by push_cast; ring
  have e2 : (0.99 : ℝ) + 0.4 * ((L : ℤ) : ℝ) = 0.99 + 2 * L / 5 := by push_cast; ring
  simp only [Seats.service, hL]
  rw [e1, e2, h1, h2]
  push_cast
  ring

/-- The width is the one for which a cabin with the shortest sidewall has the area asked for. -/
theorem width_area (e : Env) (ht : 0 < e.tan) {a : ℝ} (ha : 0 ≤ a) :
    (2 * e.side + e.tan * e.width a / 2) * e.width a / 2 = a ∧ 0 ≤ e.width a := by
  have h0 : 0 ≤ e.side ^ 2 + e.tan * a := by positivity
  have h1 := Real.sq_sqrt h0
  have h2 : e.side ≤ √(e.side ^ 2 + e.tan * a) := by
    apply Real.le_sqrt_of_sq_le
    have := mul_nonneg ht.le ha
    linarith
  constructor
  · simp only [Env.width]
    set q := √(e.side ^ 2 + e.tan * a)
    field_simp
    nlinarith
  · simp only [Env.width]
    apply div_nonneg _ ht.le
    linarith

/-- Whatever branch a round takes, the cabin it leaves has the area it computed, as a trapezoid. -/
theorem body_area (e : Env) (ht : 0 < e.tan) {b : ℝ} (ha : 0 ≤ e.area b) :
    (e.body b).area = e.area b ∧
    ((e.body b).cabin + (e.body b).side) * (e.body b).width / 2 = e.area b ∧
    (e.body b).cabin - (e.body b).side = e.tan * (e.body b).width / 2 := by
  have hw := (width_area e ht ha).1
  simp only [Env.body]
  split_ifs with h h1
  · have h2 : (0 : ℝ) < e.maxBays := by exact_mod_cast h1.2
    have h3 := h.1
    refine ⟨rfl, ?_, by ring⟩
    field_simp
    ring
  · refine ⟨rfl, ?_, by ring⟩
    dsimp only
    refine Eq.trans ?_ hw
    ring
  · refine ⟨rfl, ?_, by ring⟩
    dsimp only
    refine Eq.trans ?_ hw
    ring

/-- The three ways a round ends. -/
theorem body_cases (e : Env) (b : ℝ) :
    let w := e.width (e.area b)
    let s := e.body b
    (¬ e.tooWide w (e.count w) ∧ s.bays = e.count w ∧ s.width = w ∧ s.side = e.side ∧ s.bay = w / e.count w) ∨
    (e.tooWide w (e.count w) ∧ (0 < e.maxBays → 0.999 + w / e.maxBay ≤ e.maxBays) ∧
      s.bays = smoothIntTanh (0.999 + w / e.maxBay) 40 ∧ s.width = w ∧ s.side = e.side ∧ s.bay = e.maxBay) ∨
    (e.tooWide w (e.count w) ∧ 0 < e.maxBays ∧ (e.maxBays : ℝ) < 0.999 + w / e.maxBay ∧ s.bays = e.maxBays ∧
      s.width = e.maxBays * e.maxBay ∧ s.bay = e.maxBay) := by
  intro w s
  simp only [s, Env.body]
  split_ifs with h h1
  · exact Or.inr (Or.inr ⟨h, h1.2, h1.1, rfl, rfl, rfl⟩)
  · refine Or.inr (Or.inl ⟨h, fun h2 => ?_, rfl, rfl, rfl, rfl⟩)
    by_contra h3
    exact h1 ⟨not_le.1 h3, h2⟩
  · exact Or.inl ⟨h, rfl, rfl, rfl, rfl⟩

/-- Bays are never wider than the limit, if there is one. -/
theorem bay_limit (e : Env) (b : ℝ) (h : 0 < e.maxBay) (hn : e.count (e.width (e.area b)) ≠ 0) : (e.body b).bay ≤ e.maxBay := by
  rcases body_cases e b with ⟨h1, -, -, -, h2⟩ | ⟨-, -, -, -, -, h2⟩ | ⟨-, -, -, -, -, h2⟩
  · rw [h2]
    by_contra h3
    exact h1 ⟨h, Or.inr ⟨hn, not_le.1 h3⟩⟩
  · exact h2.le
  · exact h2.le

/-- The number of bays stays below the limit plus one; it is at most the limit unless it was smoothed at the limit. -/
theorem bays_limit (e : Env) (b : ℝ) (h : 0 < e.maxBays) : (e.body b).bays < e.maxBays + 1 := by
  rcases body_cases e b with ⟨-, h2, -⟩ | ⟨-, h1, h2, -⟩ | ⟨-, -, -, h2, -⟩
  · rw [h2]
    simp only [Env.count]
    split_ifs with h3
    · linarith
    · have h4 : 0.5 + e.width (e.area b) / 12 ≤ e.maxBays := by
        by_contra h5; exact h3 ⟨not_le.1 h5, h⟩
      have := (Int.floor_le (0.5 + e.width (e.area b) / 12)).trans h4
      linarith
  · rw [h2]
    have h3 := smoothIntTanh_range (0.999 + e.width (e.area b) / e.maxBay) 40
    have h4 := (Int.floor_le (0.999 + e.width (e.area b) / e.maxBay)).trans (h1 h)
    linarith [h3.2]
  · rw [h2]; linarith

/-- Bays fill the width, unless their number was smoothed. -/
theorem bays_fill (e : Env) (b : ℝ) (hn : e.count (e.width (e.area b)) ≠ 0) :
    (e.body b).bays * (e.body b).bay = (e.body b).width ∨
    (e.body b).bays = smoothIntTanh (0.999 + (e.body b).width / e.maxBay) 40 := by
  have hn' : (e.count (e.width (e.area b)) : ℝ) ≠ 0 := by exact_mod_cast hn
  rcases body_cases e b with ⟨-, h1, h2, -, h3⟩ | ⟨-, -, h1, h2, -⟩ | ⟨-, -, -, h1, h2, h3⟩
  · left; rw [h1, h2, h3, mul_div_cancel₀ _ hn']
  · right; rw [h1, h2]
  · left; rw [h1, h2, h3]

/-- A number of bays limited by their width is no integer. -/
theorem bays_integer_violated (e : Env) (b : ℝ) (h : e.tooWide (e.width (e.area b)) (e.count (e.width (e.area b))))
    (h1 : 0.999 + e.width (e.area b) / e.maxBay ≤ e.maxBays ∨ e.maxBays ≤ 0) (n : ℤ) : (e.body b).bays ≠ n := by
  rcases body_cases e b with ⟨h2, -⟩ | ⟨-, -, h2, -⟩ | ⟨-, h2, h3, -⟩
  · exact absurd h h2
  · rw [h2]
    have h3 := smoothIntTanh_range (0.999 + e.width (e.area b) / e.maxBay) 40
    intro h4
    rw [h4] at h3
    have a : ⌊0.999 + e.width (e.area b) / e.maxBay⌋ < n := by exact_mod_cast h3.1
    have c : n < ⌊0.999 + e.width (e.area b) / e.maxBay⌋ + 1 := by exact_mod_cast h3.2
    omega
  · rcases h1 with h1 | h1
    · linarith
    · omega

/-- The sidewall is the shortest one allowed while the number of bays is not at its limit. -/
theorem sidewall_kept (e : Env) (b : ℝ) (h : e.maxBays ≤ 0) : (e.body b).side = e.side := by
  rcases body_cases e b with ⟨-, -, -, h1, -⟩ | ⟨-, -, -, -, h1, -⟩ | ⟨-, h2, -⟩
  · exact h1
  · exact h1
  · omega

/-- The sidewall is kept too when limiting the bays does not widen the cabin. -/
theorem sidewall_partial (e : Env) (ht : 0 < e.tan) {b : ℝ} (ha : 0 ≤ e.area b)
    (hw : (e.body b).width ≤ e.width (e.area b)) (hp : 0 < (e.body b).width) : e.side ≤ (e.body b).side := by
  obtain ⟨-, h1, h2⟩ := body_area e ht ha
  obtain ⟨h3, h4⟩ := width_area e ht ha
  generalize e.width (e.area b) = w at *
  generalize (e.body b).width = v at *
  generalize (e.body b).side = s at *
  generalize (e.body b).cabin = c at *
  have hc : c = s + e.tan * v / 2 := by linarith
  subst hc
  by_contra h5
  push Not at h5
  have h6 : (2 * s + e.tan * v / 2) * v < (2 * e.side + e.tan * v / 2) * v := by
    apply mul_lt_mul_of_pos_right _ hp; linarith
  have h7 : (2 * e.side + e.tan * v / 2) * v ≤ (2 * e.side + e.tan * w / 2) * w := by
    have h8 : (s + e.tan * v / 2 + s) * v / 2 = e.area b := h1
    have h9 : 0 ≤ 2 * s + e.tan * v / 2 := by
      by_contra h10
      push Not at h10
      have : (2 * s + e.tan * v / 2) * v < 0 := mul_neg_of_neg_of_pos h10 hp
      linarith
    have ha : 0 ≤ 2 * e.side + e.tan * v / 2 := by linarith
    have hb : 2 * e.side + e.tan * v / 2 ≤ 2 * e.side + e.tan * w / 2 := by
      have := mul_le_mul_of_nonneg_left hw ht.le; linarith
    exact mul_le_mul hb hw hp.le (ha.trans hb)
  linarith

/-- Five bays of at most 12 ft, sidewalls of at least 10 ft, seats and services of 564.96 square feet and a tangent of 1. -/
def five : Env := ⟨564.96, 1, 10, 5, 12⟩

theorem five_area : five.area 5 = 1224.96 ∧ five.width 1224.96 = 52.8 ∧ five.count 52.8 = 4 := by
  refine ⟨by norm_num [Env.area, five], ?_, ?_⟩
  · have : √((10 : ℝ) ^ 2 + 1 * 1224.96) = 36.4 := by
      rw [show (10 : ℝ) ^ 2 + 1 * 1224.96 = 36.4 ^ 2 by norm_num]; exact Real.sqrt_sq (by norm_num)
    simp only [Env.width, five, this]; norm_num
  · unfold Env.count
    rw [if_neg (by norm_num [five]), Int.floor_eq_iff]; norm_num

/-- Limiting width and number of bays together can widen the cabin and shorten the sidewall below its minimum. -/
theorem sidewall_violated : (five.body 5).side < five.side ∧ (five.body 5).bays = 5 ∧ (five.body 5).width = 60 := by
  obtain ⟨h1, h2, h3⟩ := five_area
  have hw : five.tooWide 52.8 4 := ⟨by norm_num [five], Or.inr ⟨by norm_num, by norm_num [five]⟩⟩
  have hw' : five.tooWide (five.width (five.area 5)) (five.count (five.width (five.area 5))) := by rw [h1, h2, h3]; exact hw
  have hc : (five.maxBays : ℝ) < 0.999 + five.width (five.area 5) / five.maxBay ∧ 0 < five.maxBays := by
    rw [h1, h2]; norm_num [five]
  unfold Env.body
  rw [if_pos hw', if_pos hc, h1]
  norm_num [five]

/-- A loop that converges has reached a fixed point: another round from its number of bays changes nothing. -/
theorem loop_converged (e : Env) (k : ℕ) (b : ℝ) (h : (e.loop k b).2 = true) :
    e.body (e.loop k b).1.bays = (e.loop k b).1 := by
  induction k generalizing b with
  | zero =>
    simp only [Env.loop, decide_eq_true_eq] at h ⊢
    rw [← h]
  | succ k ih =>
    simp only [Env.loop] at h ⊢
    split_ifs at h ⊢ with h1
    · dsimp only; rw [← h1]
    · exact ih _ h

/-- A loop that does not converge ends after its last round. -/
theorem loop_exhausted (e : Env) (k : ℕ) (b : ℝ) (h : (e.loop k b).2 = false) :
    (e.loop k b).1 = e.body ((fun x => (e.body x).bays)^[k] b) ∧
    ∀ j ≤ k, (fun x => (e.body x).bays)^[j] b ≠ (fun x => (e.body x).bays)^[j + 1] b := by
  induction k generalizing b with
  | zero =>
    simp only [Env.loop, decide_eq_false_iff_not] at h ⊢
    refine ⟨rfl, fun j hj => ?_⟩
    obtain rfl : j = 0 := by omega
    exact h
  | succ k ih =>
    simp only [Env.loop] at h ⊢
    split_ifs at h ⊢ with h1
    obtain ⟨h2, h3⟩ := ih _ h
    refine ⟨by rw [h2, Function.iterate_succ_apply], fun j hj => ?_⟩
    rcases j with _ | j
    · exact h1
    · have := h3 j (by omega)
      simpa only [Function.iterate_succ_apply] using this

/-- Every result is one round's work, so its area and geometry agree. -/
theorem loop_body (e : Env) (k : ℕ) (b : ℝ) : ∃ b', (e.loop k b).1 = e.body b' := by
  induction k generalizing b with
  | zero => exact ⟨b, rfl⟩
  | succ k ih =>
    simp only [Env.loop]
    split_ifs
    · exact ⟨b, rfl⟩
    · exact ih _

/-- A start from a fixed point ends in the first round. -/
theorem loop_fixed (e : Env) (k : ℕ) (b : ℝ) (h : (e.body b).bays = b) : e.loop k b = (e.body b, true) := by
  cases k with
  | zero => simp [Env.loop, h]
  | succ k => simp [Env.loop, h]

theorem run_spec (e : Env) : (e.tan = 0 → e.run = .error .valueError) ∧
    (e.tan ≠ 0 → ∃ s c, e.run = .ok (s, c) ∧ (c = true → e.body s.bays = s) ∧ ∃ b, s = e.body b) := by
  refine ⟨fun h => by simp [Env.run, h], fun h => ⟨(e.loop 100 e.first).1, (e.loop 100 e.first).2, ?_, ?_, ?_⟩⟩
  · simp [Env.run, h]
  · exact loop_converged e 100 _
  · exact loop_body e 100 _

/-- The body of `five` ends at its limit of five bays in one round. -/
example : five.loop 100 5 = (five.body 5, true) ∧ 0 ≤ five.area 5 ∧ 0 < five.tan := by
  refine ⟨loop_fixed five 100 5 sidewall_violated.2.1, ?_, by norm_num [five]⟩
  rw [five_area.1]; norm_num

end Verif.BwbCabin
