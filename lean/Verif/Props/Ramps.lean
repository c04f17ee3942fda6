import Verif.Model.Ramps
import Verif.Lemmas.VecDeriv
import Verif.Lemmas.CompDeriv
import Mathlib.Analysis.SpecialFunctions.Artanh
import Mathlib.Analysis.SpecialFunctions.Log.Deriv
import Mathlib.Tactic.Linarith
import Mathlib.Tactic.Ring
import Mathlib.Tactic.FieldSimp
import Mathlib.Tactic.Positivity
import Mathlib.Tactic.FinCases

/-!
# Ramps, speed constraints, the fitted climb profile and the tip speed limit
-/

namespace Verif.Ramps
open Real

/-! ## C112 -/

/-- The binary search finds the number of entries below `x` of a sorted array. -/
theorem search_spec (a : ℕ → ℝ) (x : ℝ) (n : ℕ) (ha : ∀ i j, i ≤ j → j < n → a i ≤ a j) :
    ∀ (k l r : ℕ), r - l ≤ k → l ≤ r → r ≤ n → (∀ i < l, a i < x) → (∀ i, r ≤ i → i < n → x ≤ a i) →
      ∀ i < n, (i < search a x k l r ↔ a i < x) := by
  intro k
  induction k with
  | zero =>
    intro l r hk hlr _ hl hr i hi
    have : l = r := by omega
    subst this
    simp only [search]
    exact ⟨fun h => hl i h, fun h => by by_contra hc; have := hr i (by omega) hi; linarith⟩
  | succ k ih =>
    intro l r hk hlr hrn hl hr i hi
    simp only [search]
    by_cases h : l < r
    · rw [if_pos h]
      by_cases hm : a ((l + r) / 2) < x
      · rw [if_pos hm]
        refine ih _ _ (by omega) (by omega) hrn ?_ hr i hi
        intro j hj
        exact lt_of_le_of_lt (ha j _ (by omega) (by omega)) hm
      · rw [if_neg hm]
        refine ih _ _ (by omega) (by omega) (by omega) hl ?_ i hi
        intro j hj hjn
        exact le_trans (not_lt.1 hm) (ha _ _ hj hjn)
    · rw [if_neg h]
      have : l = r := by omega
      subst this
      exact ⟨fun h => hl i h, fun h => by by_contra hc; have := hr i (by omega) hi; linarith⟩

theorem sorted_spec (a : ℕ → ℝ) (x : ℝ) (n : ℕ) (ha : ∀ i j, i ≤ j → j < n → a i ≤ a j) (i : ℕ) (hi : i < n) :
    i < sorted a x n ↔ a i < x :=
  search_spec a x n ha n 0 n (by omega) (by omega) le_rfl (by omega) (fun i h h' => by omega) i hi

/-- Fraction of the ramp passed at time `t`. -/
noncomputable def frac (t t0 d : ℝ) : ℝ := max 0 (min 1 ((t - t0) / d))

/-- With sorted times and a positive duration the ramp multiplies the input by the fraction of the ramp passed: 0
before, 1 after, linear between. -/
theorem ramp_up_eq (r : Ramp) (hs : ∀ i j, i ≤ j → j < r.n → r.t i ≤ r.t j) (hd : 0 < r.d) (i : ℕ) (hi : i < r.n) :
    r.up i = frac (r.t i) r.t0 r.d * r.x i := by
  have h1 : i < r.i1 ↔ r.t i < r.t0 := sorted_spec _ _ _ hs i hi
  have h2 : i < r.i2 ↔ r.t i < r.t0 + r.d := sorted_spec _ _ _ hs i hi
  unfold Ramp.up frac
  by_cases c1 : r.t i < r.t0
  · have g1 := h1.2 c1
    have g2 := h2.2 (by linarith)
    rw [if_neg (by omega), if_neg (by omega)]
    have : (r.t i - r.t0) / r.d < 0 := div_neg_of_neg_of_pos (by linarith) hd
    rw [min_eq_right (by linarith), max_eq_left this.le, zero_mul]
  · have g1 : r.i1 ≤ i := by by_contra hc; exact c1 (h1.1 (by omega))
    by_cases c2 : r.t i < r.t0 + r.d
    · rw [if_pos ⟨g1, h2.2 c2⟩]
      have e0 : 0 ≤ (r.t i - r.t0) / r.d := div_nonneg (by linarith) hd.le
      have e1 : (r.t i - r.t0) / r.d ≤ 1 := by rw [div_le_one hd]; linarith
      rw [min_eq_right e1, max_eq_right e0, Ramp.scale]; ring
    · have g2 : r.i2 ≤ i := by by_contra hc; exact c2 (h2.1 (by omega))
      rw [if_neg (by omega), if_pos g2]
      have e1 : 1 ≤ (r.t i - r.t0) / r.d := by rw [le_div_iff₀ hd]; linarith
      rw [min_eq_left e1, max_eq_right zero_le_one, one_mul]

/-- Ramping up and ramping down the same input share it without rest, for any times and durations. -/
theorem ramp_split (r : Ramp) (i : ℕ) : r.up i + r.down i = r.x i := by
  unfold Ramp.up Ramp.down
  split
  · ring
  · split <;> ring

theorem frac_mem (t t0 d : ℝ) : 0 ≤ frac t t0 d ∧ frac t t0 d ≤ 1 :=
  ⟨le_max_left _ _, max_le zero_le_one (min_le_left _ _)⟩

/-- The ramped value lies between 0 and the input, never decreases in time for a positive input, starts at 0 and ends at
the input. -/
theorem ramp_between (r : Ramp) (hs : ∀ i j, i ≤ j → j < r.n → r.t i ≤ r.t j) (hd : 0 < r.d) (i : ℕ) (hi : i < r.n)
    (hx : 0 ≤ r.x i) : 0 ≤ r.up i ∧ r.up i ≤ r.x i ∧ (r.t i ≤ r.t0 → r.up i = 0) ∧ (r.t0 + r.d ≤ r.t i → r.up i = r.x i) := by
  rw [ramp_up_eq r hs hd i hi]
  obtain ⟨h0, h1⟩ := frac_mem (r.t i) r.t0 r.d
  refine ⟨mul_nonneg h0 hx, mul_le_of_le_one_left hx h1, fun h => ?_, fun h => ?_⟩
  · have : (r.t i - r.t0) / r.d ≤ 0 := div_nonpos_of_nonpos_of_nonneg (by linarith) hd.le
    rw [frac, min_eq_right (by linarith), max_eq_left this, zero_mul]
  · have : 1 ≤ (r.t i - r.t0) / r.d := by rw [le_div_iff₀ hd]; linarith
    rw [frac, min_eq_left this, max_eq_right zero_le_one, one_mul]

theorem ramp_mono (r : Ramp) (hs : ∀ i j, i ≤ j → j < r.n → r.t i ≤ r.t j) (hd : 0 < r.d) (i j : ℕ) (hij : i ≤ j)
    (hj : j < r.n) (hx : r.x i = r.x j) (h0 : 0 ≤ r.x i) : r.up i ≤ r.up j := by
  rw [ramp_up_eq r hs hd i (by omega), ramp_up_eq r hs hd j hj, ← hx]
  refine mul_le_mul_of_nonneg_right ?_ h0
  exact max_le_max le_rfl (min_le_min le_rfl (div_le_div_of_nonneg_right (by linarith [hs i j hij hj]) hd.le))

/-- The value at a node as a function of its time, the duration, the start and the input (by `ramp_up_eq`). -/
noncomputable def node (t d t0 x : ℝ) : ℝ := frac t t0 d * x

/-- Off the two corners of the ramp, the entries of the partials are the derivatives of the value at the node. -/
theorem ramp_up_partials (r : Ramp) (hs : ∀ i j, i ≤ j → j < r.n → r.t i ≤ r.t j) (hd : 0 < r.d) (i : ℕ) (hi : i < r.n)
    (c1 : r.t i ≠ r.t0) (c2 : r.t i ≠ r.t0 + r.d) :
    r.up i = node (r.t i) r.d r.t0 (r.x i) ∧
    HasDerivAt (fun x => node (r.t i) r.d r.t0 x) (r.jUp i).1 (r.x i) ∧
    HasDerivAt (fun t => node t r.d r.t0 (r.x i)) (r.jUp i).2.1 (r.t i) ∧
    HasDerivAt (fun d => node (r.t i) d r.t0 (r.x i)) (r.jUp i).2.2.1 r.d ∧
    HasDerivAt (fun t0 => node (r.t i) r.d t0 (r.x i)) (r.jUp i).2.2.2 r.t0 := by
  have h1 : i < r.i1 ↔ r.t i < r.t0 := sorted_spec _ _ _ hs i hi
  have h2 : i < r.i2 ↔ r.t i < r.t0 + r.d := sorted_spec _ _ _ hs i hi
  refine ⟨ramp_up_eq r hs hd i hi, ?_⟩
  have pd : ∀ᶠ d in nhds r.d, 0 < d := lt_mem_nhds hd
  have lin : HasDerivAt (fun x : ℝ => frac (r.t i) r.t0 r.d * x) (frac (r.t i) r.t0 r.d) (r.x i) := by
    simpa using (hasDerivAt_id (r.x i)).const_mul (frac (r.t i) r.t0 r.d)
  rcases lt_or_gt_of_ne c1 with a1 | a1
  · -- before the ramp
    have g1 := h1.2 a1
    have g2 := h2.2 (by linarith)
    have ej : r.jUp i = (0, 0, 0, 0) := by unfold Ramp.jUp; rw [if_neg (by omega), if_neg (by omega)]
    have z : ∀ t d t0 : ℝ, t < t0 → 0 < d → frac t t0 d = 0 := fun t d t0 h hd => by
      have : (t - t0) / d < 0 := div_neg_of_neg_of_pos (by linarith) hd
      rw [frac, min_eq_right (by linarith), max_eq_left this.le]
    rw [ej]
    refine ⟨?_, ?_, ?_, ?_⟩
    · exact hd_congr lin (fun x => rfl) (z _ _ _ a1 hd).symm
    · refine (hasDerivAt_const (r.t i) (0 : ℝ)).congr_of_eventuallyEq ?_
      filter_upwards [gt_mem_nhds a1] with t ht; simp [node, z t r.d r.t0 ht hd]
    · refine (hasDerivAt_const r.d (0 : ℝ)).congr_of_eventuallyEq ?_
      filter_upwards [pd] with d hd'; simp [node, z _ d _ a1 hd']
    · refine (hasDerivAt_const r.t0 (0 : ℝ)).congr_of_eventuallyEq ?_
      filter_upwards [lt_mem_nhds a1] with t0 ht; simp [node, z _ r.d t0 ht hd]
  · have g1 : r.i1 ≤ i := by by_contra hc; have := h1.1 (by omega); linarith
    rcases lt_or_gt_of_ne c2 with a2 | a2
    · -- on the ramp
      have ej : r.jUp i = (r.scale i, r.x i * (1 / r.d), r.x i * (r.t i - r.t0) * (-1 / r.d ^ 2), r.x i * -(1 / r.d)) := by
        unfold Ramp.jUp; rw [if_pos ⟨g1, h2.2 a2⟩]
      have z : ∀ t d t0 : ℝ, t0 < t → t < t0 + d → frac t t0 d = (t - t0) / d := fun t d t0 h h' => by
        have hd : 0 < d := by linarith
        have e0 : 0 ≤ (t - t0) / d := div_nonneg (by linarith) hd.le
        have e1 : (t - t0) / d ≤ 1 := by rw [div_le_one hd]; linarith
        rw [frac, min_eq_right e1, max_eq_right e0]
      rw [ej]
      refine ⟨?_, ?_, ?_, ?_⟩
      · refine hd_congr lin (fun x => rfl) ?_
        rw [z _ _ _ a1 a2, Ramp.scale]; ring
      · have h : HasDerivAt (fun t : ℝ => (t - r.t0) / r.d * r.x i) (1 / r.d * r.x i) (r.t i) := by
          simpa using (((hasDerivAt_id (r.t i)).sub_const r.t0).div_const r.d).mul_const (r.x i)
        refine hd_congr (h.congr_of_eventuallyEq (f₁ := fun t => node t r.d r.t0 (r.x i)) ?_) (fun _ => rfl) (by ring)
        filter_upwards [lt_mem_nhds a1, gt_mem_nhds a2] with t h1 h2; simp [node, z t _ _ h1 h2]
      · have h := (((hasDerivAt_id r.d).inv hd.ne').const_mul (r.t i - r.t0)).mul_const (r.x i)
        refine hd_congr (h.congr_of_eventuallyEq (f₁ := fun d => node (r.t i) d r.t0 (r.x i)) ?_) (fun _ => rfl)
          (by simp only [id]; ring)
        have : ∀ᶠ d in nhds r.d, r.t i - r.t0 < d := lt_mem_nhds (by linarith)
        filter_upwards [this] with d h1
        simp [node, z (r.t i) d r.t0 a1 (by linarith), div_eq_mul_inv]
      · have h : HasDerivAt (fun t0 : ℝ => (r.t i - t0) / r.d * r.x i) (-1 / r.d * r.x i) r.t0 := by
          simpa using (((hasDerivAt_id r.t0).const_sub (r.t i)).div_const r.d).mul_const (r.x i)
        refine hd_congr (h.congr_of_eventuallyEq (f₁ := fun t0 => node (r.t i) r.d t0 (r.x i)) ?_) (fun _ => rfl) (by ring)
        have : ∀ᶠ t0 in nhds r.t0, r.t i - r.d < t0 := lt_mem_nhds (by linarith)
        filter_upwards [this, gt_mem_nhds a1] with t0 h1 h2; simp [node, z (r.t i) r.d t0 h2 (by linarith)]
    · -- after the ramp
      have g2 : r.i2 ≤ i := by by_contra hc; have := h2.1 (by omega); linarith
      have ej : r.jUp i = (1, 0, 0, 0) := by unfold Ramp.jUp; rw [if_neg (by omega), if_pos g2]
      have z : ∀ t d t0 : ℝ, t0 + d < t → 0 < d → frac t t0 d = 1 := fun t d t0 h hd => by
        have : 1 ≤ (t - t0) / d := by rw [le_div_iff₀ hd]; linarith
        rw [frac, min_eq_left this, max_eq_right zero_le_one]
      rw [ej]
      refine ⟨?_, ?_, ?_, ?_⟩
      · exact hd_congr lin (fun x => rfl) (z _ _ _ a2 hd).symm
      · refine (hasDerivAt_const (r.t i) (r.x i)).congr_of_eventuallyEq ?_
        filter_upwards [lt_mem_nhds a2] with t ht; simp [node, z t r.d r.t0 ht hd]
      · refine (hasDerivAt_const r.d (r.x i)).congr_of_eventuallyEq ?_
        have : ∀ᶠ d in nhds r.d, d < r.t i - r.t0 := gt_mem_nhds (by linarith)
        filter_upwards [pd, this] with d hd' h; simp [node, z (r.t i) d r.t0 (by linarith) hd']
      · refine (hasDerivAt_const r.t0 (r.x i)).congr_of_eventuallyEq ?_
        have : ∀ᶠ t0 in nhds r.t0, t0 < r.t i - r.d := gt_mem_nhds (by linarith)
        filter_upwards [this] with t0 h; simp [node, z (r.t i) r.d t0 (by linarith) hd]

/-- The partials of the ramp down complement those of the ramp up: 1 in total by the input, 0 by the times. -/
theorem ramp_partials_split (r : Ramp) (i : ℕ) :
    (r.jUp i).1 + (r.jDown i).1 = 1 ∧ (r.jUp i).2.1 + (r.jDown i).2.1 = 0 ∧
    (r.jUp i).2.2.1 + (r.jDown i).2.2.1 = 0 ∧ (r.jUp i).2.2.2 + (r.jDown i).2.2.2 = 0 := by
  unfold Ramp.jUp Ramp.jDown
  split
  · refine ⟨?_, ?_, ?_, ?_⟩ <;> simp only <;> ring
  · split <;> norm_num

/-- Nodes at 0, 1, …, 9 seconds and a ramp from 2.5 s for 4 s. -/
noncomputable def demoRamp : Ramp := ⟨10, fun i => i, fun _ => 3, 2.5, 4⟩

example : demoRamp.up 4 = 1.125 ∧ (∀ i j, i ≤ j → j < demoRamp.n → demoRamp.t i ≤ demoRamp.t j) ∧
    demoRamp.t 4 ≠ demoRamp.t0 ∧ demoRamp.t 4 ≠ demoRamp.t0 + demoRamp.d := by
  have hs : ∀ i j, i ≤ j → j < demoRamp.n → demoRamp.t i ≤ demoRamp.t j := fun i j h _ => by
    simp only [demoRamp]; exact_mod_cast h
  refine ⟨?_, hs, by simp only [demoRamp]; norm_num, by simp only [demoRamp]; norm_num⟩
  rw [ramp_up_eq demoRamp hs (by simp only [demoRamp]; norm_num) 4 (by simp only [demoRamp]; norm_num)]
  have : ((4 : ℕ) : ℝ) = 4 := by norm_num
  simp only [demoRamp, frac, this]
  norm_num

/-! ### The smooth ramp -/

/-- The smooth ramp is half way at the middle of its duration and deviates equally from its two ends. -/
theorem tanh_symmetry (t0 d vi vf s : ℝ) (hd : d ≠ 0) :
    tanhRamp (t0 + d / 2) t0 d vi vf = (vi + vf) / 2 ∧
    tanhRamp (t0 + d / 2 - s) t0 d vi vf - vi = vf - tanhRamp (t0 + d / 2 + s) t0 d vi vf := by
  have e0 : 2 * π * (t0 + d / 2 - t0) / d - π = 0 := by field_simp; ring
  have e1 : 2 * π * (t0 + d / 2 - s - t0) / d - π = -(2 * π * s / d) := by field_simp; ring
  have e2 : 2 * π * (t0 + d / 2 + s - t0) / d - π = 2 * π * s / d := by field_simp; ring
  unfold tanhRamp tanhTerm
  rw [e0, e1, e2, tanh_neg, tanh_zero]
  constructor <;> ring

/-- The argument of the hyperbolic tangent runs from `-π` to `π` over the duration, as documented. -/
theorem tanh_ends (t0 d vi vf : ℝ) (hd : d ≠ 0) :
    tanhRamp t0 t0 d vi vf = vi + (vf - vi) * (1 - tanh π) / 2 ∧
    tanhRamp (t0 + d) t0 d vi vf = vf - (vf - vi) * (1 - tanh π) / 2 := by
  have e0 : 2 * π * (t0 - t0) / d - π = -π := by simp
  have e1 : 2 * π * (t0 + d - t0) / d - π = π := by field_simp; ring
  unfold tanhRamp tanhTerm
  rw [e0, e1, tanh_neg]
  constructor <;> ring

/-- The smooth ramp stays strictly between its two values and rises strictly when the final one is larger. -/
theorem tanh_between (t t0 d vi vf : ℝ) (h : vi < vf) : vi < tanhRamp t t0 d vi vf ∧ tanhRamp t t0 d vi vf < vf := by
  have h1 := neg_one_lt_tanh (2 * π * (t - t0) / d - π)
  have h2 := tanh_lt_one (2 * π * (t - t0) / d - π)
  unfold tanhRamp tanhTerm
  constructor <;> nlinarith

theorem tanh_partials (t t0 d vi vf : ℝ) (hd : d ≠ 0) :
    HasDerivAt (fun x => tanhRamp x t0 d vi vf) (jTime t t0 d vi vf) t ∧
    HasDerivAt (fun x => tanhRamp t x d vi vf) (jInit t t0 d vi vf) t0 ∧
    HasDerivAt (fun x => tanhRamp t t0 x vi vf) (jDur t t0 d vi vf) d ∧
    HasDerivAt (fun x => tanhRamp t t0 d x vf) (jVi t t0 d) vi ∧
    HasDerivAt (fun x => tanhRamp t t0 d vi x) (jVf t t0 d) vf := by
  have key : ∀ (f : ℝ → ℝ) (f' x : ℝ), HasDerivAt f f' x →
      HasDerivAt (fun y => 0.5 * (vf - vi) * (1 + tanh (f y)) + vi) (0.5 * (vf - vi) * (f' * (1 - tanh (f x) ^ 2))) x :=
    fun f f' x hf => ((((hasDerivAt_tanhd hf).const_add 1).const_mul (0.5 * (vf - vi))).add_const vi)
  refine ⟨?_, ?_, ?_, ?_, ?_⟩
  · have h : HasDerivAt (fun x : ℝ => 2 * π * (x - t0) / d - π) (2 * π / d) t := by
      simpa using ((((hasDerivAt_id t).sub_const t0).const_mul (2 * π)).div_const d).sub_const π
    refine hd_congr (key _ _ _ h) (fun x => rfl) ?_
    unfold jTime omtanh2 tanhTerm; ring
  · have h : HasDerivAt (fun x : ℝ => 2 * π * (t - x) / d - π) (-(2 * π) / d) t0 := by
      simpa using ((((hasDerivAt_id t0).const_sub t).const_mul (2 * π)).div_const d).sub_const π
    refine hd_congr (key _ _ _ h) (fun x => rfl) ?_
    unfold jInit omtanh2 tanhTerm; ring
  · have h := (((hasDerivAt_id d).inv hd).const_mul (2 * π * (t - t0))).sub_const π
    refine hd_congr (key _ _ _ h) (fun x => by simp [tanhRamp, tanhTerm, div_eq_mul_inv]) ?_
    have e : 2 * π * (t - t0) * (id⁻¹ : ℝ → ℝ) d - π = 2 * π * (t - t0) / d - π := by simp [div_eq_mul_inv]
    rw [e]
    unfold jDur omtanh2 tanhTerm; simp only [id]; ring
  · have h : HasDerivAt (fun x : ℝ => 0.5 * (vf - x) * (1 + tanhTerm t t0 d) + x) (0.5 * (-1) * (1 + tanhTerm t t0 d) + 1) vi :=
      ((((hasDerivAt_id vi).const_sub vf).const_mul 0.5).mul_const _).add (hasDerivAt_id vi)
    refine hd_congr h (fun x => rfl) ?_
    unfold jVi; ring
  · have h : HasDerivAt (fun x : ℝ => 0.5 * (x - vi) * (1 + tanhTerm t t0 d) + vi) (0.5 * 1 * (1 + tanhTerm t t0 d)) vf :=
      ((((hasDerivAt_id vf).sub_const vi).const_mul 0.5).mul_const _).add_const vi
    refine hd_congr h (fun x => rfl) ?_
    unfold jVf; ring

theorem rampCols_length (nn size : ℕ) : (rampCols nn size).length = nn * size := by
  simp [rampCols]

/-- Rows and columns agree in length only for a single entry per node: every larger shape is rejected by OpenMDAO. -/
theorem ramp_shape (nn size : ℕ) (hn : 0 < nn) : (rampRows nn).length = (rampCols nn size).length ↔ size = 1 := by
  rw [rampCols_length, rampRows, List.length_range]
  constructor
  · intro h
    have : nn * 1 = nn * size := by omega
    exact (Nat.eq_of_mul_eq_mul_left hn this).symm
  · rintro rfl; omega

/-- The shapes that `add_ramp` documents beyond one entry per node do not work. -/
theorem ramp_shape_violated : ∃ nn size, (rampRows nn).length ≠ (rampCols nn size).length :=
  ⟨5, 3, fun h => by have := (ramp_shape 5 3 (by omega)).1 h; omega⟩

/-! ### Speed constraints -/

/-- With a positive target speed, both constraints are met at a node exactly when neither limit is exceeded. -/
theorem speed_iff (easT machT : ℝ) (eas mach : ℕ → ℝ) (h : 0 < easT) (i : ℕ) :
    (∀ j < 2, speedCon easT machT eas mach i j ≤ 0) ↔ eas i ≤ easT ∧ mach i ≤ machT := by
  constructor
  · intro hc
    have h0 := hc 0 (by omega)
    have h1 := hc 1 (by omega)
    simp only [speedCon, if_true, one_ne_zero, if_false] at h0 h1
    refine ⟨by linarith, ?_⟩
    by_contra hm
    have := mul_pos h (by linarith : 0 < mach i - machT)
    linarith
  · rintro ⟨h0, h1⟩ j hj
    unfold speedCon
    split
    · linarith
    · exact mul_nonpos_of_nonneg_of_nonpos h.le (by linarith)

example : (∀ j < 2, speedCon 250 0.8 (fun _ => 240) (fun _ => 0.7) 3 j ≤ 0) :=
  (speed_iff 250 0.8 _ _ (by norm_num) 3).2 ⟨by norm_num, by norm_num⟩

/-- With the default target speed of 0 the Mach limit has no effect at all. -/
theorem speed_default_violated (machT : ℝ) (eas mach : ℕ → ℝ) (i : ℕ) : speedCon 0 machT eas mach i 1 = 0 := by
  simp [speedCon]

/-- The declared partials are exactly the derivatives of the flattened output: value `v` at `(row, col)` when declared,
0 elsewhere. -/
theorem speed_partials (easT machT : ℝ) (eas mach : ℕ → ℝ) (nn k c : ℕ) (hk : k < 2 * nn) (hc : c < nn) :
    (∀ v, (k, c, v) ∈ conJEas nn → HasDerivAt (fun t => speedFlat easT machT (Function.update eas c t) mach k) v (eas c)) ∧
    ((∀ v, (k, c, v) ∉ conJEas nn) →
      HasDerivAt (fun t => speedFlat easT machT (Function.update eas c t) mach k) 0 (eas c)) ∧
    (∀ v, (k, c, v) ∈ conJMach nn easT →
      HasDerivAt (fun t => speedFlat easT machT eas (Function.update mach c t) k) v (mach c)) ∧
    ((∀ v, (k, c, v) ∉ conJMach nn easT) →
      HasDerivAt (fun t => speedFlat easT machT eas (Function.update mach c t) k) 0 (mach c)) := by
  have memE : ∀ v, (k, c, v) ∈ conJEas nn ↔ k = c * 2 ∧ v = 1 := fun v => by
    simp only [conJEas, List.mem_map, List.mem_range, Prod.mk.injEq]
    constructor
    · rintro ⟨i, hi, h1, h2, h3⟩; subst h2; exact ⟨h1.symm, h3.symm⟩
    · rintro ⟨h1, h2⟩; exact ⟨c, hc, h1.symm, rfl, h2.symm⟩
  have memM : ∀ v, (k, c, v) ∈ conJMach nn easT ↔ k = c * 2 + 1 ∧ v = easT := fun v => by
    simp only [conJMach, List.mem_map, List.mem_range, Prod.mk.injEq]
    constructor
    · rintro ⟨i, hi, h1, h2, h3⟩; subst h2; exact ⟨h1.symm, h3.symm⟩
    · rintro ⟨h1, h2⟩; exact ⟨c, hc, h1.symm, rfl, h2.symm⟩
  refine ⟨?_, ?_, ?_, ?_⟩
  · intro v hv
    obtain ⟨h1, rfl⟩ := (memE v).1 hv
    have a1 : k / 2 = c := by omega
    have a2 : k % 2 = 0 := by omega
    refine hd_congr ((hasDerivAt_id (eas c)).sub_const easT) (fun t => ?_) rfl
    simp [speedFlat, speedCon, a1, a2]
  · intro hn
    have hne : k ≠ c * 2 := fun h => hn 1 ((memE 1).2 ⟨h, rfl⟩)
    have : (fun t => speedFlat easT machT (Function.update eas c t) mach k) =
        fun _ => speedFlat easT machT eas mach k := by
      funext t
      unfold speedFlat speedCon
      by_cases h : k % 2 = 0
      · have : k / 2 ≠ c := by omega
        simp [h, Function.update_of_ne this]
      · simp [h]
    rw [this]; exact hasDerivAt_const _ _
  · intro v hv
    obtain ⟨h1, hv'⟩ := (memM v).1 hv
    have a1 : k / 2 = c := by omega
    have a2 : k % 2 = 1 := by omega
    refine hd_congr (((hasDerivAt_id (mach c)).sub_const machT).const_mul easT) (fun t => ?_) (by rw [hv']; ring)
    simp [speedFlat, speedCon, a1, a2]
  · intro hn
    have hne : k ≠ c * 2 + 1 := fun h => hn easT ((memM easT).2 ⟨h, rfl⟩)
    have : (fun t => speedFlat easT machT eas (Function.update mach c t) k) =
        fun _ => speedFlat easT machT eas mach k := by
      funext t
      unfold speedFlat speedCon
      by_cases h : k % 2 = 0
      · simp [h]
      · have : k / 2 ≠ c := by omega
        simp [h, Function.update_of_ne this]
    rw [this]; exact hasDerivAt_const _ _

/-! ### The fitted profile -/

/-- Sum of the squared errors of the cubic with coefficients `a`. -/
def err {n : ℕ} (t h : Fin n → ℝ) (a : Fin 4 → ℝ) : ℝ := ∑ j, (cubic a (t j) - h j) ^ 2

theorem cubic_add (a b : Fin 4 → ℝ) (x : ℝ) : cubic (fun k => a k + b k) x = cubic a x + cubic b x := by
  unfold cubic; ring

/-- Exact expansion of the squared error around `a`: the residual is its gradient. -/
theorem err_add {n : ℕ} (t h : Fin n → ℝ) (a b : Fin 4 → ℝ) :
    err t h (fun k => a k + b k) = err t h a + ∑ k, resA t h a k * b k + ∑ j, cubic b (t j) ^ 2 := by
  unfold err
  have h1 : ∑ k, resA t h a k * b k = ∑ j, 2 * (cubic a (t j) - h j) * cubic b (t j) := by
    simp only [resA, Fin.sum_univ_four]
    simp only [Finset.sum_mul, ← Finset.sum_add_distrib]
    refine Finset.sum_congr rfl fun j _ => ?_
    simp only [Fin.isValue, if_true, (by decide : (1 : Fin 4) ≠ 0), (by decide : (2 : Fin 4) ≠ 0),
      (by decide : (3 : Fin 4) ≠ 0), (by decide : (2 : Fin 4) ≠ 1), (by decide : (3 : Fin 4) ≠ 1),
      (by decide : (3 : Fin 4) ≠ 2), if_false, cubic]
    ring
  rw [h1, ← Finset.sum_add_distrib, ← Finset.sum_add_distrib]
  refine Finset.sum_congr rfl fun j _ => ?_
  rw [cubic_add]; ring

/-- A state with zero residual is a best fit: no cubic has a smaller sum of squared errors. -/
theorem fit_minimal {n : ℕ} (t h : Fin n → ℝ) (a : Fin 4 → ℝ) (h0 : ∀ k, resA t h a k = 0) (b : Fin 4 → ℝ) :
    err t h a ≤ err t h b := by
  have := err_add t h a (fun k => b k - a k)
  simp only [add_sub_cancel, h0, zero_mul, Finset.sum_const_zero, add_zero] at this
  rw [this]
  have : 0 ≤ ∑ j, cubic (fun k => b k - a k) (t j) ^ 2 := Finset.sum_nonneg fun j _ => sq_nonneg _
  linarith

theorem cubic_smul (s : ℝ) (b : Fin 4 → ℝ) (x : ℝ) : cubic (fun k => s * b k) x = s * cubic b x := by
  unfold cubic; ring

/-- Conversely a best fit has zero residual. -/
theorem fit_residual {n : ℕ} (t h : Fin n → ℝ) (a : Fin 4 → ℝ) (hm : ∀ b, err t h a ≤ err t h b) (k : Fin 4) :
    resA t h a k = 0 := by
  by_contra hk
  set q := ∑ j, cubic (resA t h a) (t j) ^ 2 with hq
  set g := ∑ k, resA t h a k * resA t h a k with hg
  have hg0 : 0 < g := by
    have : resA t h a k * resA t h a k ≤ g :=
      Finset.single_le_sum (f := fun k => resA t h a k * resA t h a k) (fun i _ => mul_self_nonneg _) (Finset.mem_univ k)
    have := mul_self_pos.2 hk
    linarith
  have hq0 : 0 ≤ q := Finset.sum_nonneg fun j _ => sq_nonneg _
  have key : ∀ s : ℝ, 0 ≤ s * g + s ^ 2 * q := fun s => by
    have h1 := hm (fun k => a k + s * resA t h a k)
    rw [err_add] at h1
    have e1 : ∑ k, resA t h a k * (s * resA t h a k) = s * g := by
      rw [hg, Finset.mul_sum]; exact Finset.sum_congr rfl fun k _ => by ring
    have e2 : ∑ j, cubic (fun k => s * resA t h a k) (t j) ^ 2 = s ^ 2 * q := by
      rw [hq, Finset.mul_sum]; exact Finset.sum_congr rfl fun j _ => by rw [cubic_smul]; ring
    rw [e1, e2] at h1; linarith
  have h2 := key (-(g / (q + g)))
  have hqg : 0 < q + g := by linarith
  have e : -(g / (q + g)) * g + (-(g / (q + g))) ^ 2 * q = -(g ^ 3) / (q + g) ^ 2 := by
    field_simp; ring
  rw [e] at h2
  have : -(g ^ 3) / (q + g) ^ 2 < 0 := div_neg_of_neg_of_pos (by have := pow_pos hg0 3; linarith) (by positivity)
  linarith

/-- The residual by coefficient `k` is the derivative of the sum of squared errors by that coefficient. -/
theorem fit_gradient {n : ℕ} (t h : Fin n → ℝ) (a : Fin 4 → ℝ) (k : Fin 4) : PartialAt (err t h) a k (resA t h a k) := by
  unfold PartialAt
  have e : ∀ s, err t h (Function.update a k s) =
      err t h a + resA t h a k * (s - a k) + (s - a k) ^ 2 * ∑ j, cubic (fun i => if i = k then 1 else 0) (t j) ^ 2 := by
    intro s
    have h1 : Function.update a k s = fun i => a i + (s - a k) * (if i = k then 1 else 0) := by
      funext i; by_cases hi : i = k
      · subst hi; simp
      · simp [Function.update_of_ne hi, hi]
    rw [h1, err_add]
    congr 1
    · congr 1
      rw [Finset.sum_eq_single k]
      · simp
      · intro b _ hb; simp [hb]
      · simp
    · rw [Finset.mul_sum]; exact Finset.sum_congr rfl fun j _ => by rw [cubic_smul]; ring
  have hl : HasDerivAt (fun s : ℝ => s - a k) 1 (a k) := by simpa using (hasDerivAt_id (a k)).sub_const (a k)
  have hq := (((hl.const_mul (resA t h a k)).const_add (err t h a))).add
    ((hl.pow 2).mul_const (∑ j, cubic (fun i => if i = k then 1 else 0) (t j) ^ 2))
  exact hd_congr hq (fun s => by rw [e s]; simp) (by simp)

/-- Zero residual for a height: it is the value of the fitted cubic at the time. -/
theorem fit_heights (a : Fin 4 → ℝ) (x out : ℝ) : resH a x out = 0 ↔ out = a 0 + a 1 * x + a 2 * x ^ 2 + a 3 * x ^ 3 := by
  unfold resH cubic
  constructor <;> intro h <;> linarith

/-- Heights that lie on a cubic are fitted exactly: zero residual there, and any other zero of the residual passes
through all points as well. -/
theorem fit_exact {n : ℕ} (t : Fin n → ℝ) (c : Fin 4 → ℝ) :
    (∀ k, resA t (fun j => cubic c (t j)) c k = 0) ∧
    ∀ a, (∀ k, resA t (fun j => cubic c (t j)) a k = 0) → ∀ j, cubic a (t j) = cubic c (t j) := by
  refine ⟨fun k => by simp [resA], fun a ha j => ?_⟩
  have h1 := fit_minimal t _ a ha c
  have h2 : err t (fun j => cubic c (t j)) c = 0 := by simp [err]
  rw [h2] at h1
  have h3 : ∑ j, (cubic a (t j) - cubic c (t j)) ^ 2 = 0 :=
    le_antisymm h1 (Finset.sum_nonneg fun j _ => sq_nonneg _)
  have := (Finset.sum_eq_zero_iff_of_nonneg (fun j _ => sq_nonneg _)).1 h3 j (Finset.mem_univ j)
  have := pow_eq_zero_iff (two_ne_zero) |>.1 this
  linarith

/-! ### Tip speed -/

/-- The smooth limit is below both limits, and below the smaller one by at most `log 2 / 50`. -/
theorem ks_bounds (a b : ℝ) : max a b < ks a b ∧ ks a b ≤ max a b + log 2 / 50 := by
  have hpa := exp_pos (50 * a)
  have hpb := exp_pos (50 * b)
  constructor
  · have : ∀ c, exp (50 * c) < exp (50 * a) + exp (50 * b) → c < ks a b := fun c hc => by
      have := (log_lt_log (exp_pos _) hc)
      rw [log_exp] at this
      unfold ks; linarith
    exact max_lt (this a (by linarith)) (this b (by linarith))
  · have h1 : exp (50 * a) + exp (50 * b) ≤ 2 * exp (50 * max a b) := by
      have := exp_le_exp.2 (by linarith [le_max_left a b] : 50 * a ≤ 50 * max a b)
      have := exp_le_exp.2 (by linarith [le_max_right a b] : 50 * b ≤ 50 * max a b)
      linarith
    have := log_le_log (by linarith) h1
    rw [log_mul (by norm_num) (exp_pos _).ne', log_exp] at this
    unfold ks; linarith

theorem tip_limit_bounds (v s m tmax : ℝ) :
    tipLimit v s m tmax < tmax ∧ tipLimit v s m tmax < machLimit v s m ∧
    min tmax (machLimit v s m) - log 2 / 50 ≤ tipLimit v s m tmax := by
  obtain ⟨h1, h2⟩ := ks_bounds (-tmax) (-machLimit v s m)
  rw [max_neg_neg] at h1 h2
  unfold tipLimit
  refine ⟨?_, ?_, by linarith⟩
  · linarith [min_le_left tmax (machLimit v s m)]
  · linarith [min_le_right tmax (machLimit v s m)]

/-- At the Mach limit the helical speed of the tip, the hypotenuse of flight speed and rotation, is the limit Mach
number times the speed of sound; a tip at the smooth limit stays below it. -/
theorem tip_helical (v s m : ℝ) (h : v ^ 2 ≤ (s * m) ^ 2) (hs : 0 ≤ s * m) :
    √(v ^ 2 + machLimit v s m ^ 2) = s * m := by
  rw [machLimit, sq_sqrt (by linarith), add_sub_cancel, sqrt_sq hs]

theorem tip_helical_limit (v s m tmax : ℝ) (h : v ^ 2 ≤ (s * m) ^ 2) (hs : 0 ≤ s * m) (h0 : 0 ≤ tipLimit v s m tmax) :
    √(v ^ 2 + tipLimit v s m tmax ^ 2) < s * m := by
  have hb := (tip_limit_bounds v s m tmax).2.1
  rw [← tip_helical v s m h hs]
  apply sqrt_lt_sqrt (by positivity)
  have := pow_lt_pow_left₀ hb h0 (two_ne_zero)
  linarith

theorem ks_deriv {f g : ℝ → ℝ} {f' g' x : ℝ} (hf : HasDerivAt f f' x) (hg : HasDerivAt g g' x) :
    HasDerivAt (fun y => ks (f y) (g y)) (ksW (f x) (g x) * f' + ksW (g x) (f x) * g') x := by
  have h1 := (hf.const_mul 50).exp
  have h2 := (hg.const_mul 50).exp
  have hp : exp (50 * f x) + exp (50 * g x) ≠ 0 := by positivity
  have h := ((h1.add h2).log hp).const_mul (1 / 50)
  refine hd_congr h (fun y => rfl) ?_
  unfold ksW
  simp only [Pi.add_apply]
  rw [add_comm (exp (50 * g x)) (exp (50 * f x))]
  field_simp

/-- All partials of the tip speed and of its limit are the derivatives. -/
theorem tip_partials (v s m tmax rpm diam : ℝ) (h : v ^ 2 < (s * m) ^ 2) :
    HasDerivAt (fun x => tipLimit x s m tmax) (jTipV v s m tmax) v ∧
    HasDerivAt (fun x => tipLimit v x m tmax) (jTipS v s m tmax) s ∧
    HasDerivAt (fun x => tipLimit v s x tmax) (jTipM v s m tmax) m ∧
    HasDerivAt (fun x => tipLimit v s m x) (jTipMax v s m tmax) tmax ∧
    HasDerivAt (fun x => tipSpeed x diam) (diam * π / 60) rpm ∧
    HasDerivAt (fun x => tipSpeed rpm x) (rpm * π / 60) diam := by
  have hp : (s * m) ^ 2 - v ^ 2 ≠ 0 := by linarith
  have hL : √((s * m) ^ 2 - v ^ 2) ≠ 0 := (sqrt_pos.2 (by linarith)).ne'
  have key : ∀ (f : ℝ → ℝ) (f' x : ℝ), HasDerivAt f f' x →
      HasDerivAt (fun y => -ks (-tmax) (-f y)) (ksW (-f x) (-tmax) * f') x := fun f f' x hf => by
    refine hd_congr ((ks_deriv (hasDerivAt_const x (-tmax)) hf.neg).neg) (fun y => rfl) ?_
    simp only [Pi.neg_apply]; ring
  refine ⟨?_, ?_, ?_, ?_, ?_, ?_⟩
  · have h1 := ((((hasDerivAt_id v).pow 2).const_sub ((s * m) ^ 2)).sqrt (by simpa using hp))
    refine hd_congr (key _ _ _ h1) (fun y => rfl) ?_
    unfold jTipV dks1 machLimit; simp only [id, Pi.pow_apply, Nat.cast_ofNat]
    field_simp
    ring
  · have h1 := (((((hasDerivAt_id s).mul_const m).pow 2).sub_const (v ^ 2)).sqrt (by simpa using hp))
    refine hd_congr (key _ _ _ h1) (fun y => rfl) ?_
    unfold jTipS dks1 machLimit; simp only [id, Pi.pow_apply, Nat.cast_ofNat]
    field_simp
    ring
  · have h1 := (((((hasDerivAt_id m).const_mul s).pow 2).sub_const (v ^ 2)).sqrt (by simpa using hp))
    refine hd_congr (key _ _ _ h1) (fun y => rfl) ?_
    unfold jTipM dks1 machLimit; simp only [id, Pi.pow_apply, Nat.cast_ofNat]
    field_simp
    ring
  · refine hd_congr ((ks_deriv (hasDerivAt_id tmax).neg (hasDerivAt_const tmax (-machLimit v s m))).neg)
      (fun y => rfl) ?_
    unfold jTipMax; simp only [Pi.neg_apply, id]; ring
  · refine hd_congr ((hasDerivAt_id rpm).mul_const (diam * π / 60)) (fun x => ?_) (by ring)
    unfold tipSpeed; simp only [id]; ring
  · refine hd_congr ((hasDerivAt_id diam).mul_const (rpm * π / 60)) (fun x => ?_) (by ring)
    unfold tipSpeed; simp only [id]; ring

example : (300 : ℝ) ^ 2 < (1100 * 0.9) ^ 2 := by norm_num

end Verif.Ramps
