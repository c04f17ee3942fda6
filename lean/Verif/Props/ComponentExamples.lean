import Verif.Comp.AerodynamicsGaspBasedInterference
import Verif.Comp.GeometryGaspBasedFuselage1
import Verif.Comp.GeometryGaspBasedWing1
import Verif.Comp.MassFlopsBasedWingCommon
import Verif.Comp.MassGaspBasedDesignLoad
import Verif.Comp.MissionTwoDofOdeLandingEom1
import Mathlib.Analysis.SpecialFunctions.Trigonometric.ArctanDeriv

/-!
# Hypotheses of component theorems are met

Concrete inputs meeting the hypotheses of the `partials` theorems whose hypotheses involve trigonometric functions,
logarithms or roots and have no example beside them.
-/

namespace Verif.Comp.Examples
open Real

theorem cos_quarter : cos (π / 4) ≠ 0 := by rw [cos_pi_div_four]; positivity

theorem one_lt_sqrt {x : ℝ} (h : 1 < x) : 1 < sqrt x := by rw [lt_sqrt (by norm_num)]; linarith

/-- A Reynolds number per foot above one: `WingFuselageInterferenceMission`. -/
example : ∃ g c M T ν : ℝ, 0 < M ∧ 0 < g ∧ 0 < T ∧ 0 < ν ∧ 0 < c ∧ log 10 ≠ 0 ∧
    0 < log (((((sqrt (((7 / 5) * g) * (1333 / 25))) * M) * (sqrt T)) / ν) * c) ∧ 0 < log 10 := by
  have h10 : (0 : ℝ) < log 10 := log_pos (by norm_num)
  refine ⟨161 / 5, 13, 1, 400, 1 / 1000, by norm_num, by norm_num, by norm_num, by norm_num, by norm_num, h10.ne', ?_, h10⟩
  apply log_pos
  have h1 : 1 < sqrt (7 / 5 * (161 / 5) * (1333 / 25)) := one_lt_sqrt (by norm_num)
  have h2 : 1 < sqrt (400 : ℝ) := one_lt_sqrt (by norm_num)
  have : 1 < sqrt (7 / 5 * (161 / 5) * (1333 / 25)) * sqrt 400 := by nlinarith
  linarith

/-- Leading edge sweep of 45 degrees: `BWBFuselageParameters2`. -/
example : ∃ s : ℝ, cos (s / (180 / π)) ≠ 0 ∧ tan (s / (180 / π)) ≠ 0 := by
  have e : (45 : ℝ) / (180 / π) = π / 4 := by have := pi_pos; field_simp; norm_num
  refine ⟨45, ?_, ?_⟩ <;> rw [e]
  · exact cos_quarter
  · rw [tan_pi_div_four]; norm_num

/-- A wing of 150 ft², span 40 ft, taper 1/3 and sweep 45 degrees: `WingParameters`. -/
example : ∃ S b A t s r d : ℝ, 0 < t ∧ 0 < A ∧ cos ((s * π) / 180) ≠ 0 ∧ cos ((π * s) / 180) ≠ 0 ∧
    0 < ((A * (t + 1)) * (tan ((π * s) / 180))) - t ∧ 0 < b ∧ 0 < r ∧ 0 < S ∧
    0 < d - (r * (((2 * S) / b) / (1 + t))) ∧ cos (s * (π / 180)) ≠ 0 ∧ (1 + t) - ((d / b) * (1 - t)) ≠ 0 := by
  have e : (45 : ℝ) * π / 180 = π / 4 := by ring
  have e' : π * (45 : ℝ) / 180 = π / 4 := by ring
  have e'' : (45 : ℝ) * (π / 180) = π / 4 := by ring
  refine ⟨150, 40, 10, 1 / 3, 45, 3 / 20, 13, ?_⟩
  rw [e, e', e'', tan_pi_div_four]
  refine ⟨by norm_num, by norm_num, cos_quarter, cos_quarter, by norm_num, by norm_num, by norm_num, by norm_num,
    by norm_num, cos_quarter, by norm_num⟩

/-- Sweep of 45 degrees: `WingBendingMass`. -/
example : ∃ b s k m f n c a p l : ℝ, 0 < b ∧ cos ((π / 180) * s) ≠ 0 ∧ 0 < k ∧ 0 < m ∧ 0 < f ∧ 0 < n ∧
    0 < 1 - ((2 / 5) * c) ∧ 0 < 1 - ((1 / 10) * a) ∧ 0 < p ∧ 0 < ((24 / 25) / (cos ((π / 180) * s))) - 1 ∧ 0 < l := by
  have e : π / 180 * (45 : ℝ) = π / 4 := by ring
  refine ⟨118, 45, 1, 1, 12, 15 / 4, 1 / 5, 0, 1, 1, ?_⟩
  rw [e]
  refine ⟨by norm_num, cos_quarter, by norm_num, by norm_num, by norm_num, by norm_num, by norm_num, by norm_num,
    by norm_num, ?_, by norm_num⟩
  have hc : cos (π / 4) < 24 / 25 := by
    rw [cos_pi_div_four, div_lt_iff₀ (by norm_num), sqrt_lt' (by norm_num)]
    norm_num
  have hp : 0 < cos (π / 4) := by rw [cos_pi_div_four]; positivity
  rw [sub_pos, lt_div_iff₀ hp]
  linarith

/-- Cruise at 37000 ft and 400 kn: `LoadParameters` (smooth). -/
example : ∃ a v : ℝ, 0 < v ∧ 0 < ((if 36000 < a then (v / (18617 / 50)) else (if (22500 < a ∧ a ≤ 36000) then
      (v / (42473 / 100)) else (v / (48633 / 100)))) * (sigX ((if 36000 < a then (v / (18617 / 50)) else
      (if (22500 < a ∧ a ≤ 36000) then (v / (42473 / 100)) else (v / (48633 / 100)))) / (9 / 10)) 1 (-(1 / 100)))) +
    ((9 / 10) * (sigX ((if 36000 < a then (v / (18617 / 50)) else (if (22500 < a ∧ a ≤ 36000) then
      (v / (42473 / 100)) else (v / (48633 / 100)))) / (9 / 10)) 1 (1 / 100))) := by
  refine ⟨37000, 400, by norm_num, ?_⟩
  rw [if_pos (by norm_num)]
  unfold sigX
  rw [if_pos (by norm_num), if_pos (by norm_num)]
  positivity

/-- A glide at 1.3 times the stall speed with a sink rate of 900 ft/min: `GlideConditionComponent`. -/
example : ∃ r m S k c n : ℝ, 0 < S ∧ 0 < c ∧ 0 < m ∧ 0 < k ∧
    -1 < 900 / (60 * ((sqrt ((2 * (m / S)) / (c * r))) * k)) ∧ 900 / (60 * ((sqrt ((2 * (m / S)) / (c * r))) * k)) < 1 ∧
    n - 1 ≠ 0 ∧ cos (arcsin (900 / (60 * ((sqrt ((2 * (m / S)) / (c * r))) * k)))) ≠ 0 ∧
    tan (arcsin (900 / (60 * ((sqrt ((2 * (m / S)) / (c * r))) * k)))) ≠ 0 ∧
    arcsin (900 / (60 * ((sqrt ((2 * (m / S)) / (c * r))) * k))) ≠ 0 := by
  have e : 900 / (60 * ((sqrt ((2 * ((80000 : ℝ) / 1000)) / ((2 : ℝ) * (1 / 500)))) * (13 / 10))) = 3 / 52 := by
    rw [show 2 * ((80000 : ℝ) / 1000) / (2 * (1 / 500)) = 200 ^ 2 by norm_num, sqrt_sq (by norm_num)]
    norm_num
  have ha : 0 < arcsin (3 / 52) := arcsin_pos.2 (by norm_num)
  have hb : arcsin (3 / 52) < π / 2 := arcsin_lt_pi_div_two.2 (by norm_num)
  refine ⟨1 / 500, 80000, 1000, 13 / 10, 2, 11 / 10, ?_⟩
  rw [e]
  refine ⟨by norm_num, by norm_num, by norm_num, by norm_num, by norm_num, by norm_num, by norm_num, ?_, ?_, ha.ne'⟩
  · exact (cos_pos_of_mem_Ioo ⟨by linarith, hb⟩).ne'
  · exact (tan_pos_of_pos_of_lt_pi_div_two ha hb).ne'

end Verif.Comp.Examples
