import Verif.Lemmas.CompDeriv

/-! # Partial derivatives of the components of `aviary/subsystems/performance/performance_premission.py`

One node of a vector component is modelled over the real numbers.  Each option that selects a
branch is fixed, one namespace per choice.  `out_x` is the output `x`, `J_x__y` the entry that
`compute_partials` (or `declare_partials` with `val`) assigns, `d_x__y` the proof that the entry is
the derivative.  Inputs an output does not take as argument have no influence on it. -/

set_option linter.all false

namespace Verif.Comp.PerformancePerformancePremission.PerformancePremission
open Real

/-- Output `design_thrust_to_weight_ratio` of `PerformancePremission.compute`, aviary/subsystems/performance/performance_premission.py:33 -/
noncomputable def out_design_thrust_to_weight_ratio (propulsion_total_scaled_sls_thrust design_gross_mass : ℝ) : ℝ :=
  propulsion_total_scaled_sls_thrust / design_gross_mass

/-- Output `design_wing_loading` of `PerformancePremission.compute`, aviary/subsystems/performance/performance_premission.py:34 -/
noncomputable def out_design_wing_loading (design_gross_mass wing_area : ℝ) : ℝ :=
  design_gross_mass / wing_area

/-- Partial of `design_thrust_to_weight_ratio` with respect to `propulsion_total_scaled_sls_thrust` as set by `PerformancePremission`, aviary/subsystems/performance/performance_premission.py:41 -/
noncomputable def J_design_thrust_to_weight_ratio__propulsion_total_scaled_sls_thrust (design_gross_mass : ℝ) : ℝ :=
  1 / design_gross_mass

/-- Partial of `design_thrust_to_weight_ratio` with respect to `design_gross_mass` as set by `PerformancePremission`, aviary/subsystems/performance/performance_premission.py:45 -/
noncomputable def J_design_thrust_to_weight_ratio__design_gross_mass (propulsion_total_scaled_sls_thrust design_gross_mass : ℝ) : ℝ :=
  (-propulsion_total_scaled_sls_thrust) / (design_gross_mass ^ 2)

/-- Partial of `design_wing_loading` with respect to `design_gross_mass` as set by `PerformancePremission`, aviary/subsystems/performance/performance_premission.py:49 -/
noncomputable def J_design_wing_loading__design_gross_mass (wing_area : ℝ) : ℝ := 1 / wing_area

/-- Partial of `design_wing_loading` with respect to `wing_area` as set by `PerformancePremission`, aviary/subsystems/performance/performance_premission.py:51 -/
noncomputable def J_design_wing_loading__wing_area (design_gross_mass wing_area : ℝ) : ℝ :=
  (-design_gross_mass) / (wing_area ^ 2)

theorem d_design_thrust_to_weight_ratio__propulsion_total_scaled_sls_thrust
    (propulsion_total_scaled_sls_thrust design_gross_mass : ℝ) (h0 : 0 < design_gross_mass) :
    HasDerivAt (fun t => out_design_thrust_to_weight_ratio t design_gross_mass) (J_design_thrust_to_weight_ratio__propulsion_total_scaled_sls_thrust design_gross_mass) propulsion_total_scaled_sls_thrust := by
  simp only [out_design_thrust_to_weight_ratio, J_design_thrust_to_weight_ratio__propulsion_total_scaled_sls_thrust]
  (apply hasDerivAt_of_eq; on_goal 1 => (repeat' comp_step))
  all_goals try comp_side
  all_goals try simp only [mul_zero, zero_mul, add_zero, zero_add, sub_zero, zero_sub, mul_one, one_mul]
  all_goals try push_cast
  all_goals comp_eq

theorem d_design_thrust_to_weight_ratio__design_gross_mass (propulsion_total_scaled_sls_thrust
    design_gross_mass : ℝ) (h0 : 0 < design_gross_mass) :
    HasDerivAt (fun t => out_design_thrust_to_weight_ratio propulsion_total_scaled_sls_thrust t) (J_design_thrust_to_weight_ratio__design_gross_mass propulsion_total_scaled_sls_thrust design_gross_mass) design_gross_mass := by
  simp only [out_design_thrust_to_weight_ratio, J_design_thrust_to_weight_ratio__design_gross_mass]
  (apply hasDerivAt_of_eq; on_goal 1 => (repeat' comp_step))
  all_goals try comp_side
  all_goals try simp only [mul_zero, zero_mul, add_zero, zero_add, sub_zero, zero_sub, mul_one, one_mul]
  all_goals try push_cast
  all_goals comp_eq

theorem d_design_wing_loading__design_gross_mass (design_gross_mass wing_area : ℝ) (h0 : 0 <
    wing_area) :
    HasDerivAt (fun t => out_design_wing_loading t wing_area) (J_design_wing_loading__design_gross_mass wing_area) design_gross_mass := by
  simp only [out_design_wing_loading, J_design_wing_loading__design_gross_mass]
  (apply hasDerivAt_of_eq; on_goal 1 => (repeat' comp_step))
  all_goals try comp_side
  all_goals try simp only [mul_zero, zero_mul, add_zero, zero_add, sub_zero, zero_sub, mul_one, one_mul]
  all_goals try push_cast
  all_goals comp_eq

theorem d_design_wing_loading__wing_area (design_gross_mass wing_area : ℝ) (h0 : 0 < wing_area) :
    HasDerivAt (fun t => out_design_wing_loading design_gross_mass t) (J_design_wing_loading__wing_area design_gross_mass wing_area) wing_area := by
  simp only [out_design_wing_loading, J_design_wing_loading__wing_area]
  (apply hasDerivAt_of_eq; on_goal 1 => (repeat' comp_step))
  all_goals try comp_side
  all_goals try simp only [mul_zero, zero_mul, add_zero, zero_add, sub_zero, zero_sub, mul_one, one_mul]
  all_goals try push_cast
  all_goals comp_eq

/-- Every partial derivative set by `PerformancePremission` is the derivative of its output. -/
theorem partials (propulsion_total_scaled_sls_thrust design_gross_mass wing_area : ℝ) (h0 : 0 <
    design_gross_mass) (h1 : 0 < wing_area) :
    HasDerivAt (fun t => out_design_thrust_to_weight_ratio t design_gross_mass)
      (J_design_thrust_to_weight_ratio__propulsion_total_scaled_sls_thrust design_gross_mass)
      propulsion_total_scaled_sls_thrust ∧
    HasDerivAt (fun t => out_design_thrust_to_weight_ratio propulsion_total_scaled_sls_thrust t)
      (J_design_thrust_to_weight_ratio__design_gross_mass propulsion_total_scaled_sls_thrust
      design_gross_mass) design_gross_mass ∧
    HasDerivAt (fun t => out_design_wing_loading t wing_area)
      (J_design_wing_loading__design_gross_mass wing_area) design_gross_mass ∧
    HasDerivAt (fun t => out_design_wing_loading design_gross_mass t)
      (J_design_wing_loading__wing_area design_gross_mass wing_area) wing_area :=
  ⟨d_design_thrust_to_weight_ratio__propulsion_total_scaled_sls_thrust _ _ h0,
    d_design_thrust_to_weight_ratio__design_gross_mass _ _ h0,
    d_design_wing_loading__design_gross_mass _ _ h1, d_design_wing_loading__wing_area _ _ h1⟩

example : ∃ propulsion_total_scaled_sls_thrust design_gross_mass wing_area : ℝ,
      0 < design_gross_mass ∧
      0 < wing_area :=
  ⟨0, 1, 1, by comp_example, by comp_example⟩

end Verif.Comp.PerformancePerformancePremission.PerformancePremission

