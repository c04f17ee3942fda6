import Verif.Lemmas.CompDeriv

/-! # Partial derivatives of the components of `aviary/subsystems/propulsion/propeller/propeller_performance.py`

One node of a vector component is modelled over the real numbers.  Each option that selects a
branch is fixed, one namespace per choice.  `out_x` is the output `x`, `J_x__y` the entry that
`compute_partials` (or `declare_partials` with `val`) assigns, `d_x__y` the proof that the entry is
the derivative.  Inputs an output does not take as argument have no influence on it. -/

set_option linter.all false

namespace Verif.Comp.PropulsionPropellerPropellerPerformance.AdvanceRatio_smoothzje
open Real

/-- aviary/subsystems/propulsion/propeller/propeller_performance.py:247 -/
noncomputable def equiv_adv_ratio (vtas tipspd sqa_array : ℝ) : ℝ :=
  (((1 - ((127 / 500) * sqa_array)) * π) * vtas) / tipspd

/-- aviary/subsystems/propulsion/propeller/propeller_performance.py:252 -/
noncomputable def jze (mu vtas tipspd sqa_array : ℝ) : ℝ :=
  smoothMin (equiv_adv_ratio vtas tipspd sqa_array) 5 mu

/-- aviary/subsystems/propulsion/propeller/propeller_performance.py:262 -/
noncomputable def jze_2 (vtas tipspd sqa_array : ℝ) : ℝ :=
  (((1 - ((127 / 500) * sqa_array)) * π) * vtas) / tipspd

/-- aviary/subsystems/propulsion/propeller/propeller_performance.py:264 -/
noncomputable def djze_dsqa (vtas tipspd : ℝ) : ℝ := (((-(127 / 500)) * π) * vtas) / tipspd

/-- aviary/subsystems/propulsion/propeller/propeller_performance.py:265 -/
noncomputable def djze_dvtas (tipspd sqa_array : ℝ) : ℝ :=
  ((1 - ((127 / 500) * sqa_array)) * π) / tipspd

/-- aviary/subsystems/propulsion/propeller/propeller_performance.py:266 -/
noncomputable def djze_dtipspd (vtas tipspd sqa_array : ℝ) : ℝ :=
  (((-(1 - ((127 / 500) * sqa_array))) * π) * vtas) / (tipspd ^ 2)

/-- aviary/subsystems/propulsion/propeller/propeller_performance.py:271 -/
noncomputable def djze_dsqa_2 (mu vtas tipspd sqa_array : ℝ) : ℝ :=
  (dSmoothMin (jze_2 vtas tipspd sqa_array) 5 mu) * (djze_dsqa vtas tipspd)

/-- aviary/subsystems/propulsion/propeller/propeller_performance.py:272 -/
noncomputable def djze_dvtas_2 (mu vtas tipspd sqa_array : ℝ) : ℝ :=
  (dSmoothMin (jze_2 vtas tipspd sqa_array) 5 mu) * (djze_dvtas tipspd sqa_array)

/-- aviary/subsystems/propulsion/propeller/propeller_performance.py:273 -/
noncomputable def djze_dtipspd_2 (mu vtas tipspd sqa_array : ℝ) : ℝ :=
  (dSmoothMin (jze_2 vtas tipspd sqa_array) 5 mu) * (djze_dtipspd vtas tipspd sqa_array)

/-- Output `equiv_adv_ratio` of `AdvanceRatio.compute`, aviary/subsystems/propulsion/propeller/propeller_performance.py:255 -/
noncomputable def out_equiv_adv_ratio (mu vtas tipspd sqa_array : ℝ) : ℝ :=
  jze mu vtas tipspd sqa_array

/-- Partial of `equiv_adv_ratio` with respect to `sqa_array` as set by `AdvanceRatio`, aviary/subsystems/propulsion/propeller/propeller_performance.py:278 -/
noncomputable def J_equiv_adv_ratio__sqa_array (mu vtas tipspd sqa_array : ℝ) : ℝ :=
  djze_dsqa_2 mu vtas tipspd sqa_array

/-- Partial of `equiv_adv_ratio` with respect to `vtas` as set by `AdvanceRatio`, aviary/subsystems/propulsion/propeller/propeller_performance.py:279 -/
noncomputable def J_equiv_adv_ratio__vtas (mu vtas tipspd sqa_array : ℝ) : ℝ :=
  djze_dvtas_2 mu vtas tipspd sqa_array

/-- Partial of `equiv_adv_ratio` with respect to `tipspd` as set by `AdvanceRatio`, aviary/subsystems/propulsion/propeller/propeller_performance.py:280 -/
noncomputable def J_equiv_adv_ratio__tipspd (mu vtas tipspd sqa_array : ℝ) : ℝ :=
  djze_dtipspd_2 mu vtas tipspd sqa_array

theorem d_equiv_adv_ratio__vtas (mu vtas tipspd sqa_array : ℝ) (h0 : 0 < tipspd) (h1 : 0 < mu) :
    HasDerivAt (fun t => out_equiv_adv_ratio mu t tipspd sqa_array) (J_equiv_adv_ratio__vtas mu vtas tipspd sqa_array) vtas := by
  simp only [out_equiv_adv_ratio, J_equiv_adv_ratio__vtas, djze_dvtas_2, djze_dvtas, jze_2, jze, equiv_adv_ratio]
  (apply hasDerivAt_of_eq; on_goal 1 => (repeat' comp_step))
  all_goals try comp_side
  all_goals try simp only [mul_zero, zero_mul, add_zero, zero_add, sub_zero, zero_sub, mul_one, one_mul]
  all_goals try push_cast
  all_goals comp_eq

theorem d_equiv_adv_ratio__tipspd (mu vtas tipspd sqa_array : ℝ) (h0 : 0 < tipspd) (h1 : 0 < mu) :
    HasDerivAt (fun t => out_equiv_adv_ratio mu vtas t sqa_array) (J_equiv_adv_ratio__tipspd mu vtas tipspd sqa_array) tipspd := by
  simp only [out_equiv_adv_ratio, J_equiv_adv_ratio__tipspd, djze_dtipspd_2, djze_dtipspd, jze_2, jze, equiv_adv_ratio]
  (apply hasDerivAt_of_eq; on_goal 1 => (repeat' comp_step))
  all_goals try comp_side
  all_goals try simp only [mul_zero, zero_mul, add_zero, zero_add, sub_zero, zero_sub, mul_one, one_mul]
  all_goals try push_cast
  all_goals comp_eq

theorem d_equiv_adv_ratio__sqa_array (mu vtas tipspd sqa_array : ℝ) (h0 : 0 < tipspd) (h1 : 0 <
    mu) :
    HasDerivAt (fun t => out_equiv_adv_ratio mu vtas tipspd t) (J_equiv_adv_ratio__sqa_array mu vtas tipspd sqa_array) sqa_array := by
  simp only [out_equiv_adv_ratio, J_equiv_adv_ratio__sqa_array, djze_dsqa_2, djze_dsqa, jze_2, jze, equiv_adv_ratio]
  (apply hasDerivAt_of_eq; on_goal 1 => (repeat' comp_step))
  all_goals try comp_side
  all_goals try simp only [mul_zero, zero_mul, add_zero, zero_add, sub_zero, zero_sub, mul_one, one_mul]
  all_goals try push_cast
  all_goals comp_eq

/-- Every partial derivative set by `AdvanceRatio` is the derivative of its output. -/
theorem partials (mu vtas tipspd sqa_array : ℝ) (h0 : 0 < tipspd) (h1 : 0 < mu) :
    HasDerivAt (fun t => out_equiv_adv_ratio mu t tipspd sqa_array) (J_equiv_adv_ratio__vtas mu vtas
      tipspd sqa_array) vtas ∧
    HasDerivAt (fun t => out_equiv_adv_ratio mu vtas t sqa_array) (J_equiv_adv_ratio__tipspd mu vtas
      tipspd sqa_array) tipspd ∧
    HasDerivAt (fun t => out_equiv_adv_ratio mu vtas tipspd t) (J_equiv_adv_ratio__sqa_array mu vtas
      tipspd sqa_array) sqa_array :=
  ⟨d_equiv_adv_ratio__vtas _ _ _ _ h0 h1, d_equiv_adv_ratio__tipspd _ _ _ _ h0 h1,
    d_equiv_adv_ratio__sqa_array _ _ _ _ h0 h1⟩

example : ∃ mu vtas tipspd sqa_array : ℝ,
      0 < tipspd ∧
      0 < mu :=
  ⟨1, 0, 1, 0, by comp_example, by comp_example⟩

end Verif.Comp.PropulsionPropellerPropellerPerformance.AdvanceRatio_smoothzje

namespace Verif.Comp.PropulsionPropellerPropellerPerformance.AdvanceRatio_no_smoothzje
open Real

/-- aviary/subsystems/propulsion/propeller/propeller_performance.py:247 -/
noncomputable abbrev equiv_adv_ratio (vtas tipspd sqa_array : ℝ) : ℝ :=
  (((1 - ((127 / 500) * sqa_array)) * π) * vtas) / tipspd

/-- aviary/subsystems/propulsion/propeller/propeller_performance.py:254 -/
noncomputable abbrev jze (vtas tipspd sqa_array : ℝ) : ℝ :=
  min (equiv_adv_ratio vtas tipspd sqa_array) 5

/-- aviary/subsystems/propulsion/propeller/propeller_performance.py:262 -/
noncomputable abbrev jze_2 (vtas tipspd sqa_array : ℝ) : ℝ :=
  (((1 - ((127 / 500) * sqa_array)) * π) * vtas) / tipspd

/-- aviary/subsystems/propulsion/propeller/propeller_performance.py:264 -/
noncomputable abbrev djze_dsqa (vtas tipspd : ℝ) : ℝ := (((-(127 / 500)) * π) * vtas) / tipspd

/-- aviary/subsystems/propulsion/propeller/propeller_performance.py:265 -/
noncomputable abbrev djze_dvtas (tipspd sqa_array : ℝ) : ℝ :=
  ((1 - ((127 / 500) * sqa_array)) * π) / tipspd

/-- aviary/subsystems/propulsion/propeller/propeller_performance.py:266 -/
noncomputable abbrev djze_dtipspd (vtas tipspd sqa_array : ℝ) : ℝ :=
  (((-(1 - ((127 / 500) * sqa_array))) * π) * vtas) / (tipspd ^ 2)

/-- aviary/subsystems/propulsion/propeller/propeller_performance.py:275 -/
noncomputable abbrev djze_dsqa_2 (vtas tipspd sqa_array : ℝ) : ℝ :=
  (if (jze_2 vtas tipspd sqa_array) < 5 then 1 else 0) * (djze_dsqa vtas tipspd)

/-- aviary/subsystems/propulsion/propeller/propeller_performance.py:276 -/
noncomputable abbrev djze_dvtas_2 (vtas tipspd sqa_array : ℝ) : ℝ :=
  (if (jze_2 vtas tipspd sqa_array) < 5 then 1 else 0) * (djze_dvtas tipspd sqa_array)

/-- aviary/subsystems/propulsion/propeller/propeller_performance.py:277 -/
noncomputable abbrev djze_dtipspd_2 (vtas tipspd sqa_array : ℝ) : ℝ :=
  (if (jze_2 vtas tipspd sqa_array) < 5 then 1 else 0) * (djze_dtipspd vtas tipspd sqa_array)

/-- Output `equiv_adv_ratio` of `AdvanceRatio.compute`, aviary/subsystems/propulsion/propeller/propeller_performance.py:255 -/
noncomputable def out_equiv_adv_ratio (vtas tipspd sqa_array : ℝ) : ℝ := jze vtas tipspd sqa_array

/-- Partial of `equiv_adv_ratio` with respect to `sqa_array` as set by `AdvanceRatio`, aviary/subsystems/propulsion/propeller/propeller_performance.py:278 -/
noncomputable def J_equiv_adv_ratio__sqa_array (vtas tipspd sqa_array : ℝ) : ℝ :=
  djze_dsqa_2 vtas tipspd sqa_array

/-- Partial of `equiv_adv_ratio` with respect to `vtas` as set by `AdvanceRatio`, aviary/subsystems/propulsion/propeller/propeller_performance.py:279 -/
noncomputable def J_equiv_adv_ratio__vtas (vtas tipspd sqa_array : ℝ) : ℝ :=
  djze_dvtas_2 vtas tipspd sqa_array

/-- Partial of `equiv_adv_ratio` with respect to `tipspd` as set by `AdvanceRatio`, aviary/subsystems/propulsion/propeller/propeller_performance.py:280 -/
noncomputable def J_equiv_adv_ratio__tipspd (vtas tipspd sqa_array : ℝ) : ℝ :=
  djze_dtipspd_2 vtas tipspd sqa_array

theorem d_equiv_adv_ratio__vtas (vtas tipspd sqa_array : ℝ) (h0 : 0 < tipspd) (h1 : (((1 - ((127 /
    500) * sqa_array)) * π) * vtas) / tipspd ≠ 5) (h2 : (((1 - ((127 / 500) * sqa_array)) * π) *
    vtas) / tipspd ≠ 5) :
    HasDerivAt (fun t => out_equiv_adv_ratio t tipspd sqa_array) (J_equiv_adv_ratio__vtas vtas tipspd sqa_array) vtas := by
  simp only [out_equiv_adv_ratio, J_equiv_adv_ratio__vtas, djze_dvtas_2, djze_dvtas, jze_2, jze, equiv_adv_ratio]
  try simp only [ite_and, ite_or, not_lt, not_le]
  all_goals (apply hasDerivAt_of_eq; on_goal 1 => (repeat' comp_step))
  all_goals try comp_side
  all_goals try simp (disch := first | assumption | positivity) only [mul_rpow, div_rpow]
  all_goals try split_ifs
  all_goals try (exfalso; linarith)
  all_goals try (exfalso; apply h1; linarith)
  all_goals try (exfalso; apply h2; linarith)
  all_goals try simp only [mul_zero, zero_mul, add_zero, zero_add, sub_zero, zero_sub, mul_one, one_mul]
  all_goals try push_cast
  all_goals comp_eq

theorem d_equiv_adv_ratio__tipspd (vtas tipspd sqa_array : ℝ) (h0 : 0 < tipspd) (h1 : (((1 - ((127
    / 500) * sqa_array)) * π) * vtas) / tipspd ≠ 5) (h2 : (((1 - ((127 / 500) * sqa_array)) * π) *
    vtas) / tipspd ≠ 5) :
    HasDerivAt (fun t => out_equiv_adv_ratio vtas t sqa_array) (J_equiv_adv_ratio__tipspd vtas tipspd sqa_array) tipspd := by
  simp only [out_equiv_adv_ratio, J_equiv_adv_ratio__tipspd, djze_dtipspd_2, djze_dtipspd, jze_2, jze, equiv_adv_ratio]
  try simp only [ite_and, ite_or, not_lt, not_le]
  all_goals (apply hasDerivAt_of_eq; on_goal 1 => (repeat' comp_step))
  all_goals try comp_side
  all_goals try simp (disch := first | assumption | positivity) only [mul_rpow, div_rpow]
  all_goals try split_ifs
  all_goals try (exfalso; linarith)
  all_goals try (exfalso; apply h1; linarith)
  all_goals try (exfalso; apply h2; linarith)
  all_goals try simp only [mul_zero, zero_mul, add_zero, zero_add, sub_zero, zero_sub, mul_one, one_mul]
  all_goals try push_cast
  all_goals comp_eq

theorem d_equiv_adv_ratio__sqa_array (vtas tipspd sqa_array : ℝ) (h0 : 0 < tipspd) (h1 : (((1 -
    ((127 / 500) * sqa_array)) * π) * vtas) / tipspd ≠ 5) (h2 : (((1 - ((127 / 500) * sqa_array))
    * π) * vtas) / tipspd ≠ 5) :
    HasDerivAt (fun t => out_equiv_adv_ratio vtas tipspd t) (J_equiv_adv_ratio__sqa_array vtas tipspd sqa_array) sqa_array := by
  simp only [out_equiv_adv_ratio, J_equiv_adv_ratio__sqa_array, djze_dsqa_2, djze_dsqa, jze_2, jze, equiv_adv_ratio]
  try simp only [ite_and, ite_or, not_lt, not_le]
  all_goals (apply hasDerivAt_of_eq; on_goal 1 => (repeat' comp_step))
  all_goals try comp_side
  all_goals try simp (disch := first | assumption | positivity) only [mul_rpow, div_rpow]
  all_goals try split_ifs
  all_goals try (exfalso; linarith)
  all_goals try (exfalso; apply h1; linarith)
  all_goals try (exfalso; apply h2; linarith)
  all_goals try simp only [mul_zero, zero_mul, add_zero, zero_add, sub_zero, zero_sub, mul_one, one_mul]
  all_goals try push_cast
  all_goals comp_eq

/-- Every partial derivative set by `AdvanceRatio` is the derivative of its output. -/
theorem partials (vtas tipspd sqa_array : ℝ) (h0 : 0 < tipspd) (h1 : (((1 - ((127 / 500) *
    sqa_array)) * π) * vtas) / tipspd ≠ 5) :
    HasDerivAt (fun t => out_equiv_adv_ratio t tipspd sqa_array) (J_equiv_adv_ratio__vtas vtas tipspd
      sqa_array) vtas ∧
    HasDerivAt (fun t => out_equiv_adv_ratio vtas t sqa_array) (J_equiv_adv_ratio__tipspd vtas tipspd
      sqa_array) tipspd ∧
    HasDerivAt (fun t => out_equiv_adv_ratio vtas tipspd t) (J_equiv_adv_ratio__sqa_array vtas tipspd
      sqa_array) sqa_array :=
  ⟨d_equiv_adv_ratio__vtas _ _ _ h0 h1 h1, d_equiv_adv_ratio__tipspd _ _ _ h0 h1 h1,
    d_equiv_adv_ratio__sqa_array _ _ _ h0 h1 h1⟩

example : ∃ vtas tipspd sqa_array : ℝ,
      0 < tipspd ∧
      (((1 - ((127 / 500) * sqa_array)) * π) * vtas) / tipspd ≠ 5 :=
  ⟨0, 1, 0, by comp_example, by comp_example⟩

end Verif.Comp.PropulsionPropellerPropellerPerformance.AdvanceRatio_no_smoothzje

namespace Verif.Comp.PropulsionPropellerPropellerPerformance.AreaSquareRatio_smoothsqa
open Real

/-- aviary/subsystems/propulsion/propeller/propeller_performance.py:190 -/
noncomputable def sqa (diamnac diamprop : ℝ) : ℝ := (diamnac ^ 2) / (diamprop ^ 2)

/-- aviary/subsystems/propulsion/propeller/propeller_performance.py:195 -/
noncomputable def sqa_2 (mu diamnac diamprop : ℝ) : ℝ := smoothMin (sqa diamnac diamprop) (1 / 2) mu

/-- aviary/subsystems/propulsion/propeller/propeller_performance.py:205 -/
noncomputable def dsqa_dnacdiam (diamnac diamprop : ℝ) : ℝ := (2 * diamnac) / (diamprop ^ 2)

/-- aviary/subsystems/propulsion/propeller/propeller_performance.py:206 -/
noncomputable def dsqa_dpropdiam (diamnac diamprop : ℝ) : ℝ :=
  ((-2) * (diamnac ^ 2)) / (diamprop ^ 3)

/-- aviary/subsystems/propulsion/propeller/propeller_performance.py:211 -/
noncomputable def dsqa_dnacdiam_2 (mu diamnac diamprop : ℝ) : ℝ :=
  (dSmoothMin (sqa diamnac diamprop) (1 / 2) mu) * (dsqa_dnacdiam diamnac diamprop)

/-- aviary/subsystems/propulsion/propeller/propeller_performance.py:212 -/
noncomputable def dsqa_dpropdiam_2 (mu diamnac diamprop : ℝ) : ℝ :=
  (dSmoothMin (sqa diamnac diamprop) (1 / 2) mu) * (dsqa_dpropdiam diamnac diamprop)

/-- Output `sqa_array` of `AreaSquareRatio.compute`, aviary/subsystems/propulsion/propeller/propeller_performance.py:198 -/
noncomputable def out_sqa_array (mu diamnac diamprop : ℝ) : ℝ := sqa_2 mu diamnac diamprop

/-- Partial of `sqa_array` with respect to `diamnac` as set by `AreaSquareRatio`, aviary/subsystems/propulsion/propeller/propeller_performance.py:216 -/
noncomputable def J_sqa_array__diamnac (mu diamnac diamprop : ℝ) : ℝ :=
  dsqa_dnacdiam_2 mu diamnac diamprop

/-- Partial of `sqa_array` with respect to `diamprop` as set by `AreaSquareRatio`, aviary/subsystems/propulsion/propeller/propeller_performance.py:217 -/
noncomputable def J_sqa_array__diamprop (mu diamnac diamprop : ℝ) : ℝ :=
  dsqa_dpropdiam_2 mu diamnac diamprop

theorem d_sqa_array__diamnac (mu diamnac diamprop : ℝ) (h0 : 0 < diamprop) (h1 : 0 < mu) :
    HasDerivAt (fun t => out_sqa_array mu t diamprop) (J_sqa_array__diamnac mu diamnac diamprop) diamnac := by
  simp only [out_sqa_array, J_sqa_array__diamnac, dsqa_dnacdiam_2, dsqa_dnacdiam, sqa_2, sqa]
  (apply hasDerivAt_of_eq; on_goal 1 => (repeat' comp_step))
  all_goals try comp_side
  all_goals try simp only [mul_zero, zero_mul, add_zero, zero_add, sub_zero, zero_sub, mul_one, one_mul]
  all_goals try push_cast
  all_goals comp_eq

theorem d_sqa_array__diamprop (mu diamnac diamprop : ℝ) (h0 : 0 < diamprop) (h1 : 0 < mu) :
    HasDerivAt (fun t => out_sqa_array mu diamnac t) (J_sqa_array__diamprop mu diamnac diamprop) diamprop := by
  simp only [out_sqa_array, J_sqa_array__diamprop, dsqa_dpropdiam_2, dsqa_dpropdiam, sqa_2, sqa]
  (apply hasDerivAt_of_eq; on_goal 1 => (repeat' comp_step))
  all_goals try comp_side
  all_goals try simp only [mul_zero, zero_mul, add_zero, zero_add, sub_zero, zero_sub, mul_one, one_mul]
  all_goals try push_cast
  all_goals comp_eq

/-- Every partial derivative set by `AreaSquareRatio` is the derivative of its output. -/
theorem partials (mu diamnac diamprop : ℝ) (h0 : 0 < diamprop) (h1 : 0 < mu) :
    HasDerivAt (fun t => out_sqa_array mu t diamprop) (J_sqa_array__diamnac mu diamnac diamprop)
      diamnac ∧
    HasDerivAt (fun t => out_sqa_array mu diamnac t) (J_sqa_array__diamprop mu diamnac diamprop)
      diamprop :=
  ⟨d_sqa_array__diamnac _ _ _ h0 h1, d_sqa_array__diamprop _ _ _ h0 h1⟩

example : ∃ mu diamnac diamprop : ℝ,
      0 < diamprop ∧
      0 < mu :=
  ⟨1, 0, 1, by comp_example, by comp_example⟩

end Verif.Comp.PropulsionPropellerPropellerPerformance.AreaSquareRatio_smoothsqa

namespace Verif.Comp.PropulsionPropellerPropellerPerformance.AreaSquareRatio_no_smoothsqa
open Real

/-- aviary/subsystems/propulsion/propeller/propeller_performance.py:190 -/
noncomputable abbrev sqa (diamnac diamprop : ℝ) : ℝ := (diamnac ^ 2) / (diamprop ^ 2)

/-- aviary/subsystems/propulsion/propeller/propeller_performance.py:197 -/
noncomputable abbrev sqa_2 (diamnac diamprop : ℝ) : ℝ := min (sqa diamnac diamprop) (1 / 2)

/-- aviary/subsystems/propulsion/propeller/propeller_performance.py:205 -/
noncomputable abbrev dsqa_dnacdiam (diamnac diamprop : ℝ) : ℝ := (2 * diamnac) / (diamprop ^ 2)

/-- aviary/subsystems/propulsion/propeller/propeller_performance.py:206 -/
noncomputable abbrev dsqa_dpropdiam (diamnac diamprop : ℝ) : ℝ :=
  ((-2) * (diamnac ^ 2)) / (diamprop ^ 3)

/-- aviary/subsystems/propulsion/propeller/propeller_performance.py:214 -/
noncomputable abbrev dsqa_dnacdiam_2 (diamnac diamprop : ℝ) : ℝ :=
  (if (sqa diamnac diamprop) < (1 / 2) then 1 else 0) * (dsqa_dnacdiam diamnac diamprop)

/-- aviary/subsystems/propulsion/propeller/propeller_performance.py:215 -/
noncomputable abbrev dsqa_dpropdiam_2 (diamnac diamprop : ℝ) : ℝ :=
  (if (sqa diamnac diamprop) < (1 / 2) then 1 else 0) * (dsqa_dpropdiam diamnac diamprop)

/-- Output `sqa_array` of `AreaSquareRatio.compute`, aviary/subsystems/propulsion/propeller/propeller_performance.py:198 -/
noncomputable def out_sqa_array (diamnac diamprop : ℝ) : ℝ := sqa_2 diamnac diamprop

/-- Partial of `sqa_array` with respect to `diamnac` as set by `AreaSquareRatio`, aviary/subsystems/propulsion/propeller/propeller_performance.py:216 -/
noncomputable def J_sqa_array__diamnac (diamnac diamprop : ℝ) : ℝ :=
  dsqa_dnacdiam_2 diamnac diamprop

/-- Partial of `sqa_array` with respect to `diamprop` as set by `AreaSquareRatio`, aviary/subsystems/propulsion/propeller/propeller_performance.py:217 -/
noncomputable def J_sqa_array__diamprop (diamnac diamprop : ℝ) : ℝ :=
  dsqa_dpropdiam_2 diamnac diamprop

theorem d_sqa_array__diamnac (diamnac diamprop : ℝ) (h0 : 0 < diamprop) (h1 : (diamnac ^ 2) /
    (diamprop ^ 2) ≠ 1 / 2) :
    HasDerivAt (fun t => out_sqa_array t diamprop) (J_sqa_array__diamnac diamnac diamprop) diamnac := by
  simp only [out_sqa_array, J_sqa_array__diamnac, dsqa_dnacdiam_2, dsqa_dnacdiam, sqa_2, sqa]
  try simp only [ite_and, ite_or, not_lt, not_le]
  all_goals (apply hasDerivAt_of_eq; on_goal 1 => (repeat' comp_step))
  all_goals try comp_side
  all_goals try simp (disch := first | assumption | positivity) only [mul_rpow, div_rpow]
  all_goals try split_ifs
  all_goals try (exfalso; linarith)
  all_goals try (exfalso; apply h1; linarith)
  all_goals try simp only [mul_zero, zero_mul, add_zero, zero_add, sub_zero, zero_sub, mul_one, one_mul]
  all_goals try push_cast
  all_goals comp_eq

theorem d_sqa_array__diamprop (diamnac diamprop : ℝ) (h0 : 0 < diamprop) (h1 : (diamnac ^ 2) /
    (diamprop ^ 2) ≠ 1 / 2) :
    HasDerivAt (fun t => out_sqa_array diamnac t) (J_sqa_array__diamprop diamnac diamprop) diamprop := by
  simp only [out_sqa_array, J_sqa_array__diamprop, dsqa_dpropdiam_2, dsqa_dpropdiam, sqa_2, sqa]
  try simp only [ite_and, ite_or, not_lt, not_le]
  all_goals (apply hasDerivAt_of_eq; on_goal 1 => (repeat' comp_step))
  all_goals try comp_side
  all_goals try simp (disch := first | assumption | positivity) only [mul_rpow, div_rpow]
  all_goals try split_ifs
  all_goals try (exfalso; linarith)
  all_goals try (exfalso; apply h1; linarith)
  all_goals try simp only [mul_zero, zero_mul, add_zero, zero_add, sub_zero, zero_sub, mul_one, one_mul]
  all_goals try push_cast
  all_goals comp_eq

/-- Every partial derivative set by `AreaSquareRatio` is the derivative of its output. -/
theorem partials (diamnac diamprop : ℝ) (h0 : 0 < diamprop) (h1 : (diamnac ^ 2) / (diamprop ^ 2) ≠
    1 / 2) :
    HasDerivAt (fun t => out_sqa_array t diamprop) (J_sqa_array__diamnac diamnac diamprop) diamnac ∧
    HasDerivAt (fun t => out_sqa_array diamnac t) (J_sqa_array__diamprop diamnac diamprop) diamprop :=
  ⟨d_sqa_array__diamnac _ _ h0 h1, d_sqa_array__diamprop _ _ h0 h1⟩

example : ∃ diamnac diamprop : ℝ,
      0 < diamprop ∧
      (diamnac ^ 2) / (diamprop ^ 2) ≠ 1 / 2 :=
  ⟨0, 1, by comp_example, by comp_example⟩

end Verif.Comp.PropulsionPropellerPropellerPerformance.AreaSquareRatio_no_smoothsqa

