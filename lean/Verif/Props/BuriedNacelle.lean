import Verif.Model.BuriedNacelle
import Mathlib.Analysis.SpecialFunctions.Sqrt
import Mathlib.Analysis.Calculus.Deriv.Pow
import Mathlib.Tactic.LinearCombination

/-! # Part of a nacelle outside the fuselage: smoothness, range of validity, several engine types -/

namespace Verif.Nacelle
open Real

theorem inner_pos {x : ℝ} (h0 : 0 < x) (h1 : x < 1) : 0 < 1 - 4 * (1 / 2 - x) * (1 / 2 - x) := by nlinarith

theorem f_slope {x : ℝ} (h0 : 0 < x) (h1 : x < 1) : HasDerivAt f (df x) x := by
  have hin : HasDerivAt (fun x : ℝ => 2 * (1 / 2 - x)) (-2) x := by
    refine (((hasDerivAt_id x).const_sub (1 / 2)).const_mul 2).congr_deriv ?_
    norm_num
  have ha := (hasDerivAt_arccos (x := 2 * (1 / 2 - x)) (by linarith) (by linarith))
  have := ((ha.comp x hin).div_const π).const_sub 1
  refine this.congr_deriv ?_
  rw [df, show 1 - (2 * (1 / 2 - x)) ^ 2 = 1 - 4 * (1 / 2 - x) * (1 / 2 - x) by ring]
  ring

theorem df_slope {x : ℝ} (h0 : 0 < x) (h1 : x < 1) : HasDerivAt df (d2f x) x := by
  have hp := inner_pos h0 h1
  have hin : HasDerivAt (fun x : ℝ => 1 - 4 * (1 / 2 - x) * (1 / 2 - x)) (8 * (1 / 2 - x)) x := by
    have a := ((hasDerivAt_id x).const_sub (1 / 2))
    refine (((a.const_mul 4).mul a).const_sub 1).congr_deriv ?_
    simp only [id]; ring
  have hs := hin.sqrt hp.ne'
  have hq : sqrt (1 - 4 * (1 / 2 - x) * (1 / 2 - x)) ≠ 0 := (sqrt_pos.2 hp).ne'
  have := ((hasDerivAt_const x (-2 : ℝ)).div hs hq).div_const π
  refine this.congr_deriv ?_
  rw [d2f]
  have e := sq_sqrt hp.le
  rw [e]
  generalize sqrt (1 - 4 * (1 / 2 - x) * (1 / 2 - x)) = s at *
  generalize 1 - 4 * (1 / 2 - x) * (1 / 2 - x) = q at *
  have : q ≠ 0 := hp.ne'
  have := pi_ne_zero
  field_simp
  ring

/-- The lower cubic starts at `1` and takes value, slope and curvature at `e`. -/
theorem low_fit (A B C e : ℝ) (he : e ≠ 0) :
    let p := low A B C e
    1 + p.1 * e + p.2.1 * e ^ 2 + p.2.2 * e ^ 3 = A ∧ p.1 + 2 * p.2.1 * e + 3 * p.2.2 * e ^ 2 = B ∧
      2 * p.2.1 + 6 * p.2.2 * e = C := by
  simp only [low]
  refine ⟨?_, ?_, ?_⟩ <;> field_simp <;> ring

/-- The upper cubic ends at `0` and takes value, slope and curvature at `1 - e`. -/
theorem high_fit (A B C e : ℝ) (he : e ≠ 0) :
    let p := high A B C e;
    -(p.1 + p.2.1 + p.2.2) + p.1 * (1 - e) + p.2.1 * (1 - e) ^ 2 + p.2.2 * (1 - e) ^ 3 = A ∧
      p.1 + 2 * p.2.1 * (1 - e) + 3 * p.2.2 * (1 - e) ^ 2 = B ∧
      2 * p.2.1 + 6 * p.2.2 * (1 - e) = C := by
  simp only [high]
  refine ⟨?_, ?_, ?_⟩ <;> field_simp <;> ring

theorem eps_ne : eps ≠ 0 := by norm_num [eps]

/-- The end values, and the values and slopes at the joints. -/
theorem joins : g1 0 = 1 ∧ g2 1 = 0 ∧ g1 eps = f eps ∧ g2 (1 - eps) = f (1 - eps) ∧
    dg1 eps = df eps ∧ dg2 (1 - eps) = df (1 - eps) := by
  have a := low_fit (f eps) (df eps) (d2f eps) eps eps_ne
  have b := high_fit (f (1 - eps)) (df (1 - eps)) (d2f (1 - eps)) eps eps_ne
  refine ⟨?_, ?_, a.1, b.1, a.2.1, b.2.1⟩
  · simp only [g1]; ring
  · simp only [g2]; ring

theorem g1_slope (x : ℝ) : HasDerivAt g1 (dg1 x) x := by
  unfold g1 dg1
  generalize low (f eps) (df eps) (d2f eps) eps = p
  refine (((((hasDerivAt_id x).const_mul p.1).const_add 1).add ((hasDerivAt_pow 2 x).const_mul p.2.1)).add
      ((hasDerivAt_pow 3 x).const_mul p.2.2)).congr_deriv ?_
  norm_num; ring

theorem g2_slope (x : ℝ) : HasDerivAt g2 (dg2 x) x := by
  unfold g2 dg2
  generalize high (f (1 - eps)) (df (1 - eps)) (d2f (1 - eps)) eps = p
  refine (((((hasDerivAt_id x).const_mul p.1).const_add (-(p.1 + p.2.1 + p.2.2))).add
    ((hasDerivAt_pow 2 x).const_mul p.2.1)).add ((hasDerivAt_pow 3 x).const_mul p.2.2)).congr_deriv ?_
  norm_num; ring

/-- A number is accepted exactly when it is a fraction, by `compute` and by `compute_partials` alike. -/
theorem value_ok_iff (x : ℝ) : (∃ y, value x = .ok y) ↔ 0 ≤ x ∧ x ≤ 1 := by
  unfold value
  have : (0 : ℝ) < eps ∧ eps < 1 - eps ∧ (1 : ℝ) - eps < 1 := by norm_num [eps]
  obtain ⟨a, b, c⟩ := this
  constructor
  · rintro ⟨y, h⟩
    split_ifs at h with h1 h2 h3
    · exact ⟨by linarith [h1.1], by linarith [h1.2]⟩
    · exact ⟨h2.1, by linarith [h2.2]⟩
    · exact ⟨by linarith [h3.2], h3.1⟩
  · rintro ⟨h0, h1⟩
    by_cases k1 : eps ≤ x ∧ x ≤ 1 - eps
    · exact ⟨_, if_pos k1⟩
    · by_cases k2 : 0 ≤ x ∧ x < eps
      · exact ⟨_, by rw [if_neg k1, if_pos k2]⟩
      · have k3 : x ≤ 1 ∧ 1 - eps < x := by
          refine ⟨h1, ?_⟩
          by_contra hc
          rcases lt_or_ge x eps with hx | hx
          · exact k2 ⟨h0, hx⟩
          · exact k1 ⟨hx, not_lt.1 hc⟩
        exact ⟨_, by rw [if_neg k1, if_neg k2, if_pos k3]⟩

theorem slope_ok_iff (x : ℝ) : (∃ y, slope x = .ok y) ↔ ∃ y, value x = .ok y := by
  unfold slope value
  split_ifs <;> simp

/-- The value as a total function, `0` where `compute` fails. -/
noncomputable def total (x : ℝ) : ℝ := match value x with
  | .ok y => y
  | .error _ => 0

/-- The entry of `compute_partials` is the derivative everywhere inside the range, also at the joints. -/
theorem value_slope (x s : ℝ) (h0 : 0 < x) (h1 : x < 1) (hs : slope x = .ok s) : HasDerivAt total s x := by
  have he : (0 : ℝ) < eps ∧ eps < 1 - eps ∧ (1 : ℝ) - eps < 1 := by norm_num [eps]
  obtain ⟨a, b, c⟩ := he
  obtain ⟨-, -, jl, jh, sl, sh⟩ := joins
  have elow : ∀ w, 0 ≤ w → w ≤ eps → total w = g1 w := by
    intro w h h'
    rcases h'.eq_or_lt with rfl | h'
    · rw [total, value, if_pos ⟨le_rfl, b.le⟩, jl]
    · rw [total, value, if_neg (by intro k; linarith [k.1]), if_pos ⟨h, h'⟩]
  have emid : ∀ w, eps ≤ w → w ≤ 1 - eps → total w = f w := by
    intro w h h'
    rw [total, value, if_pos ⟨h, h'⟩]
  have ehigh : ∀ w, 1 - eps ≤ w → w ≤ 1 → total w = g2 w := by
    intro w h h'
    rcases h.eq_or_lt with rfl | h
    · rw [emid _ b.le le_rfl, jh]
    · rw [total, value, if_neg (by intro k; linarith [k.2]), if_neg (by intro k; linarith [k.2]), if_pos ⟨h', h⟩]
  have glue : ∀ (p q : ℝ → ℝ) (m s : ℝ), HasDerivAt p s m → HasDerivAt q s m →
      (∀ᶠ w in nhds m, w ≤ m → total w = p w) → (∀ᶠ w in nhds m, m ≤ w → total w = q w) →
      HasDerivAt total s m := by
    intro f g m s hf hg ef eg
    have a : HasDerivWithinAt total s (Set.Iic m) m :=
      hf.hasDerivWithinAt.congr_of_eventuallyEq (eventually_nhdsWithin_iff.2 ef) (ef.self_of_nhds le_rfl)
    have b : HasDerivWithinAt total s (Set.Ici m) m :=
      hg.hasDerivWithinAt.congr_of_eventuallyEq (eventually_nhdsWithin_iff.2 eg) (eg.self_of_nhds le_rfl)
    have := a.union b
    rwa [Set.Iic_union_Ici, hasDerivWithinAt_univ] at this
  rcases lt_trichotomy x eps with h | h | h
  · rw [slope, if_neg (by intro k; linarith [k.1]), if_pos ⟨h0.le, h⟩] at hs
    cases hs
    exact (g1_slope x).congr_of_eventuallyEq
      (by filter_upwards [Ioo_mem_nhds h0 h] with w hw using elow w hw.1.le hw.2.le)
  · subst h
    rw [slope, if_pos ⟨le_rfl, b.le⟩] at hs
    cases hs
    refine glue g1 f _ _ (sl ▸ g1_slope _) (f_slope h0 h1) ?_ ?_
    · filter_upwards [Ioi_mem_nhds h0] with w hw k using elow w (le_of_lt hw) k
    · filter_upwards [Iio_mem_nhds b] with w hw k using emid w k (le_of_lt hw)
  · rcases lt_trichotomy x (1 - eps) with h' | h' | h'
    · rw [slope, if_pos ⟨h.le, h'.le⟩] at hs
      cases hs
      exact (f_slope h0 h1).congr_of_eventuallyEq
        (by filter_upwards [Ioo_mem_nhds h h'] with w hw using emid w hw.1.le hw.2.le)
    · subst h'
      rw [slope, if_pos ⟨b.le, le_rfl⟩] at hs
      cases hs
      refine glue f g2 _ _ (f_slope h0 h1) (sh ▸ g2_slope _) ?_ ?_
      · filter_upwards [Ioi_mem_nhds b] with w hw k using emid w (le_of_lt hw) k
      · filter_upwards [Iio_mem_nhds h1] with w hw k using ehigh w k (le_of_lt hw)
    · rw [slope, if_neg (by intro k; linarith [k.2]), if_neg (by intro k; linarith [k.2]), if_pos ⟨h1.le, h'⟩] at hs
      cases hs
      exact (g2_slope x).congr_of_eventuallyEq
        (by filter_upwards [Ioo_mem_nhds h' h1] with w hw using ehigh w (le_of_lt hw.1) (le_of_lt hw.2))

/-- In the middle range the exposed part is the part of a circle outside a line: with the angle `t` at which the
fuselage cuts the nacelle, `cos t = 1 - 2 x`, the part is `1 - t / π`; half of it at half the diameter. -/
theorem middle (t : ℝ) (h0 : 0 ≤ t) (h1 : t ≤ π) : f ((1 - cos t) / 2) = 1 - t / π := by
  rw [f, show 2 * (1 / 2 - (1 - cos t) / 2) = cos t by ring, arccos_cos h0 h1]

theorem half : value (1 / 2) = .ok (1 / 2) := by
  rw [value, if_pos (by norm_num [eps])]
  congr 1
  rw [f]
  norm_num
  field_simp
  norm_num

example : (0 : ℝ) < 1 / 20 ∧ (1 / 20 : ℝ) < 1 ∧ slope (1 / 20) = .ok (df (1 / 20)) := by
  refine ⟨by norm_num, by norm_num, ?_⟩
  rw [slope, if_pos (by norm_num [eps])]

/-- One engine type: the array of one number is accepted exactly when the number is a fraction. -/
theorem compute_single_partial (x : ℝ) : (∃ y, compute [x] = .ok [y]) ↔ 0 ≤ x ∧ x ≤ 1 := by
  rw [← value_ok_iff]
  simp only [compute]
  cases value x <;> simp [Except.map]

/-- More than one engine type: fractions are not accepted. The component declares one entry per engine type. -/
theorem compute_types_violated :
    ¬ ∀ xs : List ℝ, xs ≠ [] → (∀ x ∈ xs, 0 ≤ x ∧ x ≤ 1) → ∃ ys, compute xs = .ok ys := by
  intro h
  obtain ⟨ys, hy⟩ := h [1 / 2, 1 / 2] (by simp) (by simp; norm_num)
  simp [compute] at hy

end Verif.Nacelle
