import Verif.Model.Geopotential
import Mathlib.Analysis.SpecialFunctions.Pow.Deriv
import Mathlib.Analysis.Calculus.MeanValue
import Mathlib.Analysis.Calculus.Deriv.MeanValue
import Mathlib.MeasureTheory.Integral.IntervalIntegral.FundThmCalculus
import Mathlib.Tactic.LinearCombination

/-!
# Geopotential to geometric altitude

`H` in the code is the integral of local gravity over standard gravity, the loop ends after at most six passes for
every altitude from 0 to 600000 ft, and the result reproduces the requested geopotential altitude to 7 cm.
-/

namespace Verif.Geo
open Real

/-- Local gravity: attraction less the centrifugal part. -/
noncomputable def gravity (z : ℝ) : ℝ := gn z - (radius + z) * oc2

/-- `H` in closed form. -/
theorem geopotential_eq {z : ℝ} (hz : 0 ≤ z) :
    geopotential z = (gns * radius * (1 - (radius / (radius + z)) ^ cm1) / cm1 - z * (radius + z / 2) * oc2) / g0 := by
  have hr : (0 : ℝ) < radius := by norm_num [radius]
  have hR : 0 < radius + z := by linarith
  have h1 : (radius / (radius + z)) ^ (cm1 + 1) = (radius / (radius + z)) ^ cm1 * (radius / (radius + z)) := by
    rw [rpow_add (by positivity), rpow_one]
  have h2 : ((radius + z) / radius) ^ cm1 = ((radius / (radius + z)) ^ cm1)⁻¹ := by
    rw [← inv_rpow (by positivity), inv_div]
  have hp : 0 < (radius / (radius + z)) ^ cm1 := by positivity
  unfold geopotential gn
  simp only [h1, h2]
  generalize (radius / (radius + z)) ^ cm1 = p at *
  congr 1
  field_simp
  ring

/-- The slope of `H` is local gravity over standard gravity. -/
theorem geopotential_slope {z : ℝ} (hz : 0 ≤ z) :
    HasDerivWithinAt geopotential (gravity z / g0) (Set.Ici 0) z := by
  have hr : (0 : ℝ) < radius := by norm_num [radius]
  have hR : 0 < radius + z := by linarith
  have hc : cm1 ≠ 0 := by norm_num [cm1]
  have hd : HasDerivAt (fun t => radius / (radius + t)) (-radius / (radius + z) ^ 2) z := by
    have := ((hasDerivAt_id z).const_add radius).fun_inv hR.ne'
    have := this.const_mul radius
    simp only [← div_eq_mul_inv] at this
    refine this.congr_deriv ?_
    simp only [id]
    ring
  have hp : HasDerivAt (fun t => (radius / (radius + t)) ^ cm1) _ z := hd.rpow_const (p := cm1) (Or.inl (by positivity))
  have hq : HasDerivAt (fun t : ℝ => t * (radius + t / 2) * oc2) ((radius + z) * oc2) z := by
    have := (((hasDerivAt_id z).mul (((hasDerivAt_id z).div_const 2).const_add radius))).mul_const oc2
    refine this.congr_deriv ?_
    simp only [id]
    ring
  have key := ((((hp.const_sub 1).const_mul (gns * radius)).div_const cm1).sub hq).div_const g0
  refine (key.hasDerivWithinAt.congr_deriv ?_).congr (fun t ht => geopotential_eq ht) (geopotential_eq hz)
  have h1 : (radius / (radius + z)) ^ (cm1 + 1) = (radius / (radius + z)) ^ (cm1 - 1) * (radius / (radius + z)) ^ 2 := by
    rw [← rpow_natCast, ← rpow_add (by positivity)]
    norm_num
    ring_nf
  unfold gravity gn
  rw [h1]
  congr 1
  generalize (radius / (radius + z)) ^ (cm1 - 1) = p at *
  field_simp
  try ring

/-- Gravity on the way up to 200 km stays between 93.9 and 100 percent of the standard. -/
theorem gravity_bounds {z : ℝ} (h0 : 0 ≤ z) (h1 : z ≤ 200000) : 0.939 ≤ gravity z / g0 ∧ gravity z / g0 ≤ 1 := by
  have hr : (0 : ℝ) < radius := by norm_num [radius]
  have hR : 0 < radius + z := by linarith
  have hq1 : radius / (radius + z) ≤ 1 := by rw [div_le_one hR]; linarith
  have hq0 : 0.96956 ≤ radius / (radius + z) := by
    rw [le_div_iff₀ hR]
    norm_num [radius]
    linarith
  have hlow : 0.94 ≤ (radius / (radius + z)) ^ (cm1 + 1) := by
    calc (0.94 : ℝ) ≤ (radius / (radius + z)) ^ 2 := by nlinarith
      _ = (radius / (radius + z)) ^ (2 : ℝ) := by norm_cast
      _ ≤ _ := rpow_le_rpow_of_exponent_ge (by positivity) hq1 (by norm_num [cm1])
  have hup : (radius / (radius + z)) ^ (cm1 + 1) ≤ 1 := rpow_le_one (by positivity) hq1 (by norm_num [cm1])
  unfold gravity gn
  generalize (radius / (radius + z)) ^ (cm1 + 1) = p at *
  have : (0 : ℝ) < g0 := by norm_num [g0]
  constructor
  · rw [le_div_iff₀ this]
    norm_num [g0, gns, radius, oc2]
    nlinarith
  · rw [div_le_one this]
    norm_num [g0, gns, radius, oc2]
    nlinarith

theorem geopotential_zero : geopotential 0 = 0 := by
  rw [geopotential_eq le_rfl]
  have : (radius : ℝ) ≠ 0 := by norm_num [radius]
  simp [this]

/-- `H` is the integral of local gravity over standard gravity. -/
theorem geopotential_integral {z : ℝ} (hz : 0 ≤ z) : geopotential z = ∫ t in (0 : ℝ)..z, gravity t / g0 := by
  have hcont : ContinuousOn (fun t => gravity t / g0) (Set.Icc 0 z) := by
    have hr : (0 : ℝ) < radius := by norm_num [radius]
    unfold gravity gn
    refine ((continuousOn_const.mul (ContinuousOn.rpow_const (continuousOn_const.div (by fun_prop) ?_) ?_)).sub
      (by fun_prop)).div_const _
    · intro t ht; have := ht.1; exact ne_of_gt (show 0 < radius + t by linarith)
    · intro t ht; have := ht.1; left; exact ne_of_gt (div_pos hr (by linarith))
  have := intervalIntegral.integral_eq_sub_of_hasDeriv_right_of_le hz
    (f := geopotential) (f' := fun t => gravity t / g0)
    (fun t ht => (geopotential_slope ht.1).continuousWithinAt.mono Set.Icc_subset_Ici_self)
    (fun t ht => (geopotential_slope ht.1.le).mono (Set.Ioi_subset_Ici ht.1.le))
    (hcont.intervalIntegrable_of_Icc hz)
  rw [this, geopotential_zero, sub_zero]

/-- The part of a step of size `b - a` that `H` does not follow is at most 6.1 percent and has its sign. -/
theorem geopotential_step {a b : ℝ} (ha : 0 ≤ a) (hab : a ≤ b) (hb : b ≤ 200000) :
    0.939 * (b - a) ≤ geopotential b - geopotential a ∧ geopotential b - geopotential a ≤ b - a := by
  rcases hab.eq_or_lt with rfl | hlt
  · simp
  have hc : ContinuousOn geopotential (Set.Icc a b) := fun t ht =>
    ((geopotential_slope (ha.trans ht.1)).continuousWithinAt).mono (fun s hs => ha.trans hs.1)
  have hd : ∀ t ∈ Set.Ioo a b, HasDerivAt geopotential (gravity t / g0) t := fun t ht =>
    (geopotential_slope (ha.trans ht.1.le)).hasDerivAt (Ici_mem_nhds (lt_of_le_of_lt ha ht.1))
  obtain ⟨t, ht, he⟩ := exists_hasDerivAt_eq_slope geopotential (fun t => gravity t / g0) hlt hc hd
  have hg := gravity_bounds (ha.trans ht.1.le) (ht.2.le.trans hb)
  rw [he] at hg
  have hpos : 0 < b - a := by linarith
  rw [le_div_iff₀ hpos, div_le_one hpos] at hg
  exact hg

theorem step_abs {a b : ℝ} (ha : 0 ≤ a) (ha' : a ≤ 200000) (hb : 0 ≤ b) (hb' : b ≤ 200000) :
    |(b - a) - (geopotential b - geopotential a)| ≤ 0.061 * |b - a| := by
  rcases le_total a b with h | h
  · have := geopotential_step ha h hb'
    rw [abs_of_nonneg (by linarith), abs_of_nonneg (by linarith)]
    linarith [this.1]
  · have := geopotential_step hb h ha'
    rw [abs_of_nonpos (by linarith), abs_of_nonpos (by linarith)]
    linarith [this.1]

/-- A pass of the loop stays between the geopotential altitude and 200 km. -/
theorem pass_range {ho z : ℝ} (h1 : ho ≤ 187000) (hz : 0 ≤ z) (hz' : z ≤ 200000) :
    ho ≤ z + (ho - geopotential z) ∧ z + (ho - geopotential z) ≤ 200000 := by
  have := geopotential_step le_rfl hz hz'
  rw [geopotential_zero] at this
  constructor <;> linarith [this.1, this.2]

/-- The residual shrinks to at most 6.1 percent in a pass. -/
theorem pass_residual {ho z : ℝ} (h0 : 0 ≤ ho) (h1 : ho ≤ 187000) (hz : 0 ≤ z) (hz' : z ≤ 200000) :
    |ho - geopotential (z + (ho - geopotential z))| ≤ 0.061 * |ho - geopotential z| := by
  obtain ⟨a, b⟩ := pass_range h1 hz hz'
  have := step_abs hz hz' (h0.trans a) b
  rw [show z + (ho - geopotential z) - z = ho - geopotential z by ring] at this
  calc _ = |ho - geopotential z - (geopotential (z + (ho - geopotential z)) - geopotential z)| := by congr 1; ring
    _ ≤ _ := this

/-- The loop ends once the passes suffice for the contraction, and what it returns has a residual of at most 6.1 cm. -/
theorem loop_ends (ho : ℝ) (h0 : 0 ≤ ho) (h1 : ho ≤ 187000) (n : ℕ) : ∀ z, 0 ≤ z → z ≤ 200000 →
    0.061 ^ n * |ho - geopotential z| ≤ 1 →
    ∃ y, loop ho (n + 1) z = some y ∧ ho ≤ y ∧ y ≤ 200000 ∧ |ho - geopotential y| ≤ 0.061 := by
  induction n with
  | zero =>
    intro z hz hz' hs
    simp only [pow_zero, one_mul] at hs
    obtain ⟨a, b⟩ := pass_range h1 hz hz'
    refine ⟨_, by rw [loop, if_neg (not_lt.2 hs)], a, b, ?_⟩
    have := pass_residual h0 h1 hz hz'
    linarith
  | succ n ih =>
    intro z hz hz' hs
    obtain ⟨a, b⟩ := pass_range h1 hz hz'
    have hr := pass_residual h0 h1 hz hz'
    rw [loop]
    split_ifs with hd
    · apply ih _ (h0.trans a) b
      have : (0 : ℝ) ≤ 0.061 ^ n := by positivity
      calc _ ≤ 0.061 ^ n * (0.061 * |ho - geopotential z|) := by gcongr
        _ = 0.061 ^ (n + 1) * |ho - geopotential z| := by rw [pow_succ]; ring
        _ ≤ 1 := hs
    · refine ⟨_, rfl, a, b, ?_⟩
      have := not_lt.1 hd
      linarith

theorem start_range {ft : ℝ} (h0 : 0 ≤ ft) (h1 : ft ≤ 600000) : 0 ≤ start ft ∧ start ft ≤ 200000 := by
  have hp : ft ^ (2.0085 : ℝ) ≤ 2 * ft ^ 2 := by
    rcases h0.eq_or_lt with rfl | hpos
    · rw [zero_rpow (by norm_num)]; norm_num
    rw [show (2.0085 : ℝ) = 2 + 0.0085 by norm_num, rpow_add hpos, mul_comm]
    have e : ft ^ (2 : ℝ) = ft ^ 2 := by norm_cast
    rw [e]
    have : ft ^ (0.0085 : ℝ) ≤ 2 := by
      calc ft ^ (0.0085 : ℝ) ≤ ((2 : ℝ) ^ (20 : ℝ)) ^ (0.0085 : ℝ) := by
            apply rpow_le_rpow h0 _ (by norm_num)
            calc ft ≤ 600000 := h1
              _ ≤ (2 : ℝ) ^ (20 : ℕ) := by norm_num
              _ = _ := by norm_cast
        _ = 2 ^ (0.17 : ℝ) := by rw [← rpow_mul (by norm_num)]; norm_num
        _ ≤ 2 ^ (1 : ℝ) := rpow_le_rpow_of_exponent_le (by norm_num) (by norm_num)
        _ = 2 := rpow_one 2
    gcongr
  have hn : 0 ≤ ft ^ (2.0085 : ℝ) := rpow_nonneg h0 _
  have hsq : ft ^ 2 ≤ 600000 ^ 2 := by gcongr
  unfold start
  constructor
  · positivity
  · norm_num
    linarith

/-- Every altitude from 0 to 600000 ft is converted in at most six passes. The geometric altitude is not below the
geopotential one and reproduces it to 6.1 cm. -/
theorem convert_ok (ft : ℝ) (h0 : 0 ≤ ft) (h1 : ft ≤ 600000) :
    ∃ y, convert 6 ft = .ok y ∧ ft ≤ y ∧ |ft * 0.3048 - geopotential (y * 0.3048)| ≤ 0.061 := by
  have hho : 0 ≤ ft * 0.3048 := by positivity
  have hho' : ft * 0.3048 ≤ 187000 := by linarith
  obtain ⟨s0, s1⟩ := start_range h0 h1
  have hg := geopotential_step le_rfl s0 s1
  rw [geopotential_zero] at hg
  have hres : |ft * 0.3048 - geopotential (start ft)| ≤ 200000 := by
    rw [abs_le]; constructor <;> linarith [hg.1, hg.2]
  obtain ⟨y, hy, a, _, c⟩ := loop_ends (ft * 0.3048) hho hho' 5 (start ft) s0 s1 (by
    calc _ ≤ (0.061 : ℝ) ^ 5 * 200000 := by gcongr
      _ ≤ 1 := by norm_num)
  refine ⟨y / 0.3048, by rw [convert, if_neg (not_lt.2 h0), hy], ?_, ?_⟩
  · rw [le_div_iff₀ (by norm_num)]; exact a
  · rw [div_mul_cancel₀ _ (by norm_num)]; exact c

/-- There is exactly one geometric altitude for each geopotential altitude, and the result is within 6.5 cm of it. -/
theorem convert_accuracy (ft y : ℝ) (h0 : 0 ≤ ft) (h1 : ft ≤ 600000) (hy : convert 6 ft = .ok y) :
    ∃ z, 0 ≤ z ∧ z ≤ 200000 ∧ geopotential z = ft * 0.3048 ∧ |y * 0.3048 - z| ≤ 0.065 ∧
      ∀ w, 0 ≤ w → w ≤ 200000 → geopotential w = ft * 0.3048 → w = z := by
  have hho : 0 ≤ ft * 0.3048 := by positivity
  have hho' : ft * 0.3048 ≤ 187000 := by linarith
  have hc : ContinuousOn geopotential (Set.Icc 0 200000) := fun t ht =>
    ((geopotential_slope ht.1).continuousWithinAt).mono (fun s hs => hs.1)
  have hB := geopotential_step (a := 0) (b := 200000) le_rfl (by norm_num) le_rfl
  rw [geopotential_zero] at hB
  obtain ⟨z, hz, he⟩ := intermediate_value_Icc (by norm_num) hc
    (show ft * 0.3048 ∈ Set.Icc (geopotential 0) (geopotential 200000) by
      rw [geopotential_zero]; exact ⟨hho, by linarith [hB.1]⟩)
  have near : ∀ w, 0 ≤ w → w ≤ 200000 → 0.939 * |w - z| ≤ |ft * 0.3048 - geopotential w| := by
    intro w hw hw'
    rw [← he]
    rcases le_total w z with h | h
    · have := (geopotential_step hw h hz.2).1
      rw [abs_of_nonpos (by linarith), abs_of_nonneg (by linarith)]; linarith
    · have := (geopotential_step hz.1 h hw').1
      rw [abs_of_nonneg (by linarith), abs_of_nonpos (by linarith)]; linarith
  refine ⟨z, hz.1, hz.2, he, ?_, ?_⟩
  · obtain ⟨s0, s1⟩ := start_range h0 h1
    have hg := geopotential_step le_rfl s0 s1
    rw [geopotential_zero] at hg
    have hres : |ft * 0.3048 - geopotential (start ft)| ≤ 200000 := by
      rw [abs_le]; constructor <;> linarith [hg.1, hg.2]
    obtain ⟨x, hx, a, b, c⟩ := loop_ends (ft * 0.3048) hho hho' 5 (start ft) s0 s1 (by
      calc _ ≤ (0.061 : ℝ) ^ 5 * 200000 := by gcongr
        _ ≤ 1 := by norm_num)
    rw [convert, if_neg (not_lt.2 h0), hx] at hy
    have hyx : x / 0.3048 = y := by simpa using hy
    rw [← hyx, div_mul_cancel₀ _ (by norm_num)]
    have := near x (hho.trans a) b
    linarith
  · intro w hw hw' hew
    have := near w hw hw'
    rw [hew, sub_self, abs_zero] at this
    have h2 : |w - z| = 0 := le_antisymm (by linarith [abs_nonneg (w - z)]) (abs_nonneg _)
    linarith [abs_eq_zero.1 h2]

/-- Zero stays zero. -/
theorem convert_zero : convert 1 0 = .ok 0 := by
  have e : start 0 = 0 := by rw [start, zero_rpow (by norm_num)]; norm_num
  simp [convert, loop, e, geopotential_zero, show ¬ (1 : ℝ) < 0 by norm_num]

/-- More passes do not change a result. -/
theorem loop_mono (ho : ℝ) (n m : ℕ) (h : n ≤ m) : ∀ z y, loop ho n z = some y → loop ho m z = some y := by
  induction n generalizing m with
  | zero => intro z y h; simp [loop] at h
  | succ n ih =>
    intro z y hy
    obtain ⟨m, rfl⟩ : ∃ k, m = k + 1 := ⟨m - 1, by omega⟩
    rw [loop] at hy ⊢
    split_ifs at hy ⊢ with hd
    · exact ih m (by omega) _ _ hy
    · exact hy

/-- Altitudes below sea level are not converted, however many passes are allowed. -/
theorem convert_negative_violated (ft : ℝ) (h : ft < 0) (n : ℕ) : ∀ y, convert n ft ≠ .ok y := by
  intro y; rw [convert, if_pos h]; simp

example : (0 : ℝ) ≤ 35000 ∧ (35000 : ℝ) ≤ 600000 ∧ (-1000 : ℝ) < 0 := by norm_num

end Verif.Geo
