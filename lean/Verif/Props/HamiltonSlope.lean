import Verif.Props.HamiltonStandard
import Verif.Lemmas.Deriv

/-!
# C48: the slope of `_unint` is continuous
-/

namespace Verif.HS
noncomputable section
open Filter Topology Set

/-- Slope of the parabola through three points. -/
def parabD (x0 x1 x2 y0 y1 y2 x : ℝ) : ℝ :=
  y0 * ((x - x1) + (x - x2)) / ((x0 - x1) * (x0 - x2)) + y1 * ((x - x0) + (x - x2)) / ((x1 - x0) * (x1 - x2)) +
    y2 * ((x - x0) + (x - x1)) / ((x2 - x0) * (x2 - x1))

theorem hasDerivAt_parab (x0 x1 x2 y0 y1 y2 x : ℝ) :
    HasDerivAt (parab x0 x1 x2 y0 y1 y2) (parabD x0 x1 x2 y0 y1 y2 x) x := by
  have q : ∀ a b y c : ℝ, HasDerivAt (fun x => y * ((x - a) * (x - b)) / c) (y * ((x - a) + (x - b)) / c) x := by
    intro a b y c
    have h := ((((hasDerivAt_id' x).sub_const a).mul ((hasDerivAt_id' x).sub_const b)).const_mul y).div_const c
    refine h.congr_deriv ?_
    ring
  exact ((q x1 x2 y0 _).add (q x0 x2 y1 _)).add (q x0 x1 y2 _)

/-- Slope of the parabola around point `m`. -/
def PD (xa ya : ℕ → ℝ) (m : ℕ) (x : ℝ) : ℝ :=
  parabD (xa (m - 1)) (xa m) (xa (m + 1)) (ya (m - 1)) (ya m) (ya (m + 1)) x

theorem hasDerivAt_P (xa ya : ℕ → ℝ) (m : ℕ) (x : ℝ) : HasDerivAt (P xa ya m) (PD xa ya m x) x :=
  hasDerivAt_parab _ _ _ _ _ _ x

/-- Slope of the curve of the interval ending at `k`. -/
def SD (n : ℕ) (xa ya : ℕ → ℝ) (k : ℕ) (x : ℝ) : ℝ :=
  if k = 1 then PD xa ya 1 x
  else if k = n - 1 then PD xa ya (n - 2) x
  else -1 / (xa k - xa (k - 1)) * (P xa ya (k - 1) x - P xa ya k x) +
    ((xa k - x) / (xa k - xa (k - 1)) * PD xa ya (k - 1) x + (1 - (xa k - x) / (xa k - xa (k - 1))) * PD xa ya k x)

theorem hasDerivAt_S (n : ℕ) (xa ya : ℕ → ℝ) (k : ℕ) (x : ℝ) : HasDerivAt (S n xa ya k) (SD n xa ya k x) x := by
  by_cases c1 : k = 1
  · have : S n xa ya k = P xa ya 1 := by funext y; simp [S, c1]
    rw [this, SD, if_pos c1]; exact hasDerivAt_P xa ya 1 x
  by_cases c2 : k = n - 1
  · have : S n xa ya k = P xa ya (n - 2) := by funext y; simp only [S, if_neg c1, if_pos c2]
    rw [this, SD, if_neg c1, if_pos c2]; exact hasDerivAt_P xa ya _ x
  · have e : S n xa ya k = fun y => (xa k - y) / (xa k - xa (k - 1)) * P xa ya (k - 1) y +
        (1 - (xa k - y) / (xa k - xa (k - 1))) * P xa ya k y := by funext y; simp only [S, if_neg c1, if_neg c2]
    have hr : HasDerivAt (fun y => (xa k - y) / (xa k - xa (k - 1))) (-1 / (xa k - xa (k - 1))) x := by
      have := ((hasDerivAt_id' x).const_sub (xa k)).div_const (xa k - xa (k - 1))
      exact this
    have h := (hr.mul (hasDerivAt_P xa ya (k - 1) x)).add ((hr.const_sub 1).mul (hasDerivAt_P xa ya k x))
    rw [e, SD, if_neg c1, if_neg c2]
    refine h.congr_deriv ?_
    ring

theorem continuous_SD (n : ℕ) (xa ya : ℕ → ℝ) (k : ℕ) : Continuous (SD n xa ya k) := by
  have hP : ∀ m, Continuous (P xa ya m) := fun m => continuous_iff_continuousAt.2 fun x => (hasDerivAt_P xa ya m x).continuousAt
  have hPD : ∀ m, Continuous (PD xa ya m) := by
    intro m
    have q : ∀ a b y c : ℝ, Continuous (fun x : ℝ => y * ((x - a) + (x - b)) / c) := by
      intro a b y c
      exact (continuous_const.mul ((continuous_id.sub continuous_const).add (continuous_id.sub continuous_const))).div_const c
    exact ((q _ _ _ _).add (q _ _ _ _)).add (q _ _ _ _)
  by_cases c1 : k = 1
  · have : SD n xa ya k = PD xa ya 1 := by funext y; simp [SD, c1]
    rw [this]; exact hPD 1
  by_cases c2 : k = n - 1
  · have : SD n xa ya k = PD xa ya (n - 2) := by funext y; simp only [SD, if_neg c1, if_pos c2]
    rw [this]; exact hPD _
  · have e : SD n xa ya k = fun x => -1 / (xa k - xa (k - 1)) * (P xa ya (k - 1) x - P xa ya k x) +
    ((xa k - x) / (xa k - xa (k - 1)) * PD xa ya (k - 1) x + (1 - (xa k - x) / (xa k - xa (k - 1))) * PD xa ya k x) := by
      funext y; simp only [SD, if_neg c1, if_neg c2]
    rw [e]
    have hr : Continuous (fun y : ℝ => (xa k - y) / (xa k - xa (k - 1))) := (continuous_const.sub continuous_id).div_const _
    exact (continuous_const.mul ((hP _).sub (hP _))).add ((hr.mul (hPD _)).add ((continuous_const.sub hr).mul (hPD _)))

/-- At an inner point both adjacent curves have the slope of the parabola around that point. -/
theorem SD_node (n : ℕ) (xa ya : ℕ → ℝ) (hx : Incr n xa) (hn : 4 ≤ n) (k : ℕ) (hk : 1 ≤ k) (hkn : k + 1 < n) :
    SD n xa ya k (xa k) = PD xa ya k (xa k) ∧ SD n xa ya (k + 1) (xa k) = PD xa ya k (xa k) := by
  have hmid : ∀ m, 1 ≤ m → m + 1 < n → P xa ya m (xa m) = ya m := fun m h1 h2 =>
    parab_mid _ _ _ _ _ _ (sub_ne hx (by omega) (by omega)) (sub_ne hx (by omega) (by omega))
  have hright : ∀ m, 1 ≤ m → m + 1 < n → P xa ya m (xa (m + 1)) = ya (m + 1) := fun m h1 h2 =>
    parab_right _ _ _ _ _ _ (sub_ne hx (by omega) (by omega)) (sub_ne hx (by omega) (by omega))
  have hleft : ∀ m, 1 ≤ m → m + 1 < n → P xa ya m (xa (m - 1)) = ya (m - 1) := fun m h1 h2 =>
    parab_left _ _ _ _ _ _ (sub_ne hx (by omega) (by omega)) (sub_ne hx (by omega) (by omega))
  constructor
  · unfold SD
    split_ifs with c1 c2
    · rw [c1]
    · omega
    · have e := hright (k - 1) (by omega) (by omega)
      rw [show k - 1 + 1 = k by omega] at e
      rw [e, hmid k hk hkn]
      simp
  · unfold SD
    split_ifs with c1 c2
    · omega
    · rw [show n - 2 = k by omega]
    · have hne : xa (k + 1) - xa k ≠ 0 := sub_ne hx (by omega) hkn
      have e := hleft (k + 1) (by omega) (by omega)
      rw [show k + 1 - 1 = k by omega] at e ⊢
      rw [e, hmid k hk hkn, div_self hne]
      simp

/-- The interpolated value. -/
def val (n : ℕ) (xa ya : ℕ → ℝ) (x : ℝ) : ℝ := (unint n xa ya x).1

theorem val_eqOn (n : ℕ) (xa ya : ℕ → ℝ) (hx : Incr n xa) (hn : 4 ≤ n) (k : ℕ) (hk : 1 ≤ k) (hkn : k < n) :
    EqOn (val n xa ya) (S n xa ya k) (Icc (xa (k - 1)) (xa k)) := by
  intro x hxm
  simp only [val, unint_closed n xa ya hx hn k hk hkn x hxm.1 hxm.2]

/-- **C48 (slope between points).** -/
theorem unint_slope_inside (n : ℕ) (xa ya : ℕ → ℝ) (hx : Incr n xa) (hn : 4 ≤ n) (k : ℕ) (hk : 1 ≤ k) (hkn : k < n) (x : ℝ)
    (h1 : xa (k - 1) < x) (h2 : x < xa k) : HasDerivAt (val n xa ya) (SD n xa ya k x) x := by
  refine (hasDerivAt_S n xa ya k x).congr_of_eventuallyEq ?_
  filter_upwards [Icc_mem_nhds h1 h2] with y hy
  exact val_eqOn n xa ya hx hn k hk hkn hy

/-- **C48 (slope at points).** At every inner table point the interpolation is differentiable; its slope is that of the parabola through the
point and its neighbours. -/
theorem unint_slope_node (n : ℕ) (xa ya : ℕ → ℝ) (hx : Incr n xa) (hn : 4 ≤ n) (k : ℕ) (hk : 1 ≤ k) (hkn : k + 1 < n) :
    HasDerivAt (val n xa ya) (PD xa ya k (xa k)) (xa k) := by
  obtain ⟨e1, e2⟩ := SD_node n xa ya hx hn k hk hkn
  have hl : xa (k - 1) < xa k := hx _ _ (by omega) (by omega)
  have hr : xa k < xa (k + 1) := hx _ _ (by omega) hkn
  have hL : HasDerivWithinAt (val n xa ya) (PD xa ya k (xa k)) (Iic (xa k)) (xa k) := by
    have h := (hasDerivAt_S n xa ya k (xa k)).hasDerivWithinAt (s := Icc (xa (k - 1)) (xa k))
    rw [e1] at h
    have h2 := h.congr (val_eqOn n xa ya hx hn k hk (by omega)) (val_eqOn n xa ya hx hn k hk (by omega) ⟨hl.le, le_rfl⟩)
    exact h2.mono_of_mem_nhdsWithin (Icc_mem_nhdsLE hl)
  have hR : HasDerivWithinAt (val n xa ya) (PD xa ya k (xa k)) (Ici (xa k)) (xa k) := by
    have h := (hasDerivAt_S n xa ya (k + 1) (xa k)).hasDerivWithinAt (s := Icc (xa k) (xa (k + 1)))
    rw [e2] at h
    have heq := val_eqOn n xa ya hx hn (k + 1) (by omega) hkn
    rw [show k + 1 - 1 = k by omega] at heq
    have h2 := h.congr heq (heq ⟨le_rfl, hr.le⟩)
    exact h2.mono_of_mem_nhdsWithin (Icc_mem_nhdsGE hr)
  have := hL.union hR
  rwa [Iic_union_Ici, hasDerivWithinAt_univ] at this

/-- **C48 (continuity of slope).** On the open range of the table the interpolation is continuously differentiable, as its description
promises. -/
theorem unint_slope_continuous (n : ℕ) (xa ya : ℕ → ℝ) (hx : Incr n xa) (hn : 4 ≤ n) :
    DifferentiableOn ℝ (val n xa ya) (Ioo (xa 0) (xa (n - 1))) ∧
    ContinuousOn (deriv (val n xa ya)) (Ioo (xa 0) (xa (n - 1))) := by
  have cases : ∀ x ∈ Ioo (xa 0) (xa (n - 1)), (∃ k, 1 ≤ k ∧ k + 1 < n ∧ x = xa k) ∨
      ∃ k, 1 ≤ k ∧ k < n ∧ xa (k - 1) < x ∧ x < xa k := by
    intro x hxm
    rcases locate_interval n xa (by omega) x hxm.1.le hxm.2.le with ⟨i, hi, rfl⟩ | h
    · refine Or.inl ⟨i, ?_, ?_, rfl⟩
      · rcases Nat.eq_zero_or_pos i with h | h
        · subst h; exact absurd hxm.1 (lt_irrefl _)
        · exact h
      · by_contra hge
        have : i = n - 1 := by omega
        rw [this] at hxm; exact absurd hxm.2 (lt_irrefl _)
    · exact Or.inr h
  constructor
  · intro x hxm
    rcases cases x hxm with ⟨k, hk, hkn, rfl⟩ | ⟨k, hk, hkn, h1, h2⟩
    · exact (unint_slope_node n xa ya hx hn k hk hkn).differentiableAt.differentiableWithinAt
    · exact (unint_slope_inside n xa ya hx hn k hk hkn x h1 h2).differentiableAt.differentiableWithinAt
  · intro x hxm
    apply ContinuousAt.continuousWithinAt
    rcases cases x hxm with ⟨k, hk, hkn, rfl⟩ | ⟨k, hk, hkn, h1, h2⟩
    · obtain ⟨e1, e2⟩ := SD_node n xa ya hx hn k hk hkn
      have hl : xa (k - 1) < xa k := hx _ _ (by omega) (by omega)
      have hr : xa k < xa (k + 1) := hx _ _ (by omega) hkn
      have hd := (unint_slope_node n xa ya hx hn k hk hkn).deriv
      rw [continuousAt_iff_continuous_left_right]
      constructor
      · have hc : ContinuousWithinAt (SD n xa ya k) (Iic (xa k)) (xa k) := (continuous_SD n xa ya k).continuousWithinAt
        refine hc.congr_of_eventuallyEq ?_ (by rw [hd, e1])
        filter_upwards [Ioc_mem_nhdsLE hl] with y hy
        rcases eq_or_lt_of_le hy.2 with h | h
        · rw [h, hd, e1]
        · exact (unint_slope_inside n xa ya hx hn k hk (by omega) y hy.1 h).deriv
      · have hc : ContinuousWithinAt (SD n xa ya (k + 1)) (Ici (xa k)) (xa k) :=
          (continuous_SD n xa ya (k + 1)).continuousWithinAt
        refine hc.congr_of_eventuallyEq ?_ (by rw [hd, e2])
        filter_upwards [Ico_mem_nhdsGE hr] with y hy
        rcases eq_or_lt_of_le hy.1 with h | h
        · rw [← h, hd, e2]
        · exact (unint_slope_inside n xa ya hx hn (k + 1) (by omega) hkn y (by simpa using h) hy.2).deriv
    · have hc : ContinuousAt (SD n xa ya k) x := (continuous_SD n xa ya k).continuousAt
      refine hc.congr_of_eventuallyEq ?_
      filter_upwards [Ioo_mem_nhds h1 h2] with y hy
      exact (unint_slope_inside n xa ya hx hn k hk hkn y hy.1 hy.2).deriv

/-- **C48 (continuity).** The value is continuous on the whole line, including the clamped ends. -/
theorem unint_continuous (n : ℕ) (xa ya : ℕ → ℝ) (hx : Incr n xa) (hn : 4 ≤ n) : Continuous (val n xa ya) := by
  have hS : ∀ k, Continuous (S n xa ya k) := fun k => continuous_iff_continuousAt.2 fun x => (hasDerivAt_S n xa ya k x).continuousAt
  have h01 : xa 0 < xa 1 := hx _ _ (by omega) (by omega)
  have hnn : xa (n - 2) < xa (n - 1) := hx _ _ (by omega) (by omega)
  have h0n : xa 0 < xa (n - 1) := hx _ _ (by omega) (by omega)
  rw [continuous_iff_continuousAt]
  intro x
  rcases lt_trichotomy x (xa 0) with h | h | h
  · have hc : ContinuousAt (fun _ : ℝ => ya 0) x := continuousAt_const
    refine hc.congr_of_eventuallyEq ?_
    filter_upwards [Iio_mem_nhds h] with y hy
    simp only [val, (unint_outside n xa ya hx (by omega) y).1 hy]
  · subst h
    have hv : val n xa ya (xa 0) = ya 0 := by simp only [val, unint_node n xa ya hx 0 (by omega)]
    rw [continuousAt_iff_continuous_left_right]
    constructor
    · have hc : ContinuousWithinAt (fun _ : ℝ => ya 0) (Iic (xa 0)) (xa 0) := continuousWithinAt_const
      refine hc.congr ?_ hv
      intro y hy
      rcases eq_or_lt_of_le (show y ≤ xa 0 from hy) with h | h
      · rw [h, hv]
      · simp only [val, (unint_outside n xa ya hx (by omega) y).1 h]
    · have hc : ContinuousWithinAt (S n xa ya 1) (Ici (xa 0)) (xa 0) := (hS 1).continuousWithinAt
      have heq := val_eqOn n xa ya hx hn 1 le_rfl (by omega)
      refine hc.congr_of_eventuallyEq ?_ (heq ⟨le_rfl, h01.le⟩)
      filter_upwards [Icc_mem_nhdsGE h01] with y hy
      exact heq hy
  · rcases lt_trichotomy x (xa (n - 1)) with h' | h' | h'
    · exact ((unint_slope_continuous n xa ya hx hn).1.differentiableAt (Ioo_mem_nhds h h')).continuousAt
    · subst h'
      have hv : val n xa ya (xa (n - 1)) = ya (n - 1) := by simp only [val, unint_node n xa ya hx (n - 1) (by omega)]
      rw [continuousAt_iff_continuous_left_right]
      constructor
      · have hc : ContinuousWithinAt (S n xa ya (n - 1)) (Iic (xa (n - 1))) (xa (n - 1)) := (hS _).continuousWithinAt
        have heq := val_eqOn n xa ya hx hn (n - 1) (by omega) (by omega)
        rw [show n - 1 - 1 = n - 2 by omega] at heq
        refine hc.congr_of_eventuallyEq ?_ (heq ⟨hnn.le, le_rfl⟩)
        filter_upwards [Icc_mem_nhdsLE hnn] with y hy
        exact heq hy
      · have hc : ContinuousWithinAt (fun _ : ℝ => ya (n - 1)) (Ici (xa (n - 1))) (xa (n - 1)) := continuousWithinAt_const
        refine hc.congr ?_ hv
        intro y hy
        rcases eq_or_lt_of_le (show xa (n - 1) ≤ y from hy) with h | h
        · rw [← h, hv]
        · simp only [val, (unint_outside n xa ya hx (by omega) y).2 h]
    · have hc : ContinuousAt (fun _ : ℝ => ya (n - 1)) x := continuousAt_const
      refine hc.congr_of_eventuallyEq ?_
      filter_upwards [Ioi_mem_nhds h'] with y hy
      simp only [val, (unint_outside n xa ya hx (by omega) y).2 hy]

example : Incr 4 (fun i : ℕ => (i : ℝ)) := by intro i j h _; show (i : ℝ) < (j : ℝ); exact_mod_cast h

end
end Verif.HS
