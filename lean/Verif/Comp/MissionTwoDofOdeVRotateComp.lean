import Verif.Lemmas.CompDeriv

/-! # Partial derivatives of the components of `aviary/mission/two_dof/ode/v_rotate_comp.py`

One node of a vector component is modelled over the real numbers.  Each option that selects a
branch is fixed, one namespace per choice.  `out_x` is the output `x`, `J_x__y` the entry that
`compute_partials` (or `declare_partials` with `val`) assigns, `d_x__y` the proof that the entry is
the derivative.  Inputs an output does not take as argument have no influence on it. -/

set_option linter.all false

namespace Verif.Comp.MissionTwoDofOdeVRotateComp.VRotateComp
open Real

/-- aviary/mission/two_dof/ode/v_rotate_comp.py:73 -/
noncomputable def k (density wing_area mass cl_max : ℝ) : ℝ :=
  (1 / 2) * (((2 * mass) / ((density * wing_area) * cl_max)) ^ ((1 / 2) : ℝ))

/-- Output `vrot` of `VRotateComp.compute`, aviary/mission/two_dof/ode/v_rotate_comp.py:61 -/
noncomputable def out_vrot (density wing_area mass cl_max dv1 dvr : ℝ) : ℝ :=
  ((((2 * mass) / ((density * wing_area) * cl_max)) ^ ((1 / 2) : ℝ)) + dv1) + dvr

/-- Partial of `vrot` with respect to `dv1` as set by `VRotateComp`, aviary/mission/two_dof/ode/v_rotate_comp.py:41 -/
noncomputable def J_vrot__dv1 : ℝ := 1

/-- Partial of `vrot` with respect to `dvr` as set by `VRotateComp`, aviary/mission/two_dof/ode/v_rotate_comp.py:41 -/
noncomputable def J_vrot__dvr : ℝ := 1

/-- Partial of `vrot` with respect to `mass` as set by `VRotateComp`, aviary/mission/two_dof/ode/v_rotate_comp.py:75 -/
noncomputable def J_vrot__mass (density wing_area mass cl_max : ℝ) : ℝ :=
  (k density wing_area mass cl_max) / mass

/-- Partial of `vrot` with respect to `density` as set by `VRotateComp`, aviary/mission/two_dof/ode/v_rotate_comp.py:76 -/
noncomputable def J_vrot__density (density wing_area mass cl_max : ℝ) : ℝ :=
  (-(k density wing_area mass cl_max)) / density

/-- Partial of `vrot` with respect to `wing_area` as set by `VRotateComp`, aviary/mission/two_dof/ode/v_rotate_comp.py:77 -/
noncomputable def J_vrot__wing_area (density wing_area mass cl_max : ℝ) : ℝ :=
  (-(k density wing_area mass cl_max)) / wing_area

/-- Partial of `vrot` with respect to `cl_max` as set by `VRotateComp`, aviary/mission/two_dof/ode/v_rotate_comp.py:78 -/
noncomputable def J_vrot__cl_max (density wing_area mass cl_max : ℝ) : ℝ :=
  (-(k density wing_area mass cl_max)) / cl_max

theorem d_vrot__density (density wing_area mass cl_max dv1 dvr : ℝ) (h0 : 0 < density) (h1 : 0 <
    wing_area) (h2 : 0 < cl_max) (h3 : 0 < mass) :
    HasDerivAt (fun t => out_vrot t wing_area mass cl_max dv1 dvr) (J_vrot__density density wing_area mass cl_max) density := by
  simp only [out_vrot, J_vrot__density, k]
  (apply hasDerivAt_of_eq; on_goal 1 => (repeat' comp_step))
  all_goals try comp_side
  all_goals try simp (disch := first | assumption | positivity) only [div_mul_eq_div_div, div_half, inv_half]
  all_goals try simp only [mul_zero, zero_mul, add_zero, zero_add, sub_zero, zero_sub, mul_one, one_mul]
  all_goals try push_cast
  all_goals comp_eq

theorem d_vrot__wing_area (density wing_area mass cl_max dv1 dvr : ℝ) (h0 : 0 < density) (h1 : 0 <
    wing_area) (h2 : 0 < cl_max) (h3 : 0 < mass) :
    HasDerivAt (fun t => out_vrot density t mass cl_max dv1 dvr) (J_vrot__wing_area density wing_area mass cl_max) wing_area := by
  simp only [out_vrot, J_vrot__wing_area, k]
  (apply hasDerivAt_of_eq; on_goal 1 => (repeat' comp_step))
  all_goals try comp_side
  all_goals try simp (disch := first | assumption | positivity) only [div_mul_eq_div_div, div_half, inv_half]
  all_goals try simp only [mul_zero, zero_mul, add_zero, zero_add, sub_zero, zero_sub, mul_one, one_mul]
  all_goals try push_cast
  all_goals comp_eq

theorem d_vrot__mass (density wing_area mass cl_max dv1 dvr : ℝ) (h0 : 0 < density) (h1 : 0 <
    wing_area) (h2 : 0 < cl_max) (h3 : 0 < mass) :
    HasDerivAt (fun t => out_vrot density wing_area t cl_max dv1 dvr) (J_vrot__mass density wing_area mass cl_max) mass := by
  simp only [out_vrot, J_vrot__mass, k]
  (apply hasDerivAt_of_eq; on_goal 1 => (repeat' comp_step))
  all_goals try comp_side
  all_goals try simp (disch := first | assumption | positivity) only [div_mul_eq_div_div, div_half, inv_half]
  all_goals try simp only [mul_zero, zero_mul, add_zero, zero_add, sub_zero, zero_sub, mul_one, one_mul]
  all_goals try push_cast
  all_goals comp_eq

theorem d_vrot__cl_max (density wing_area mass cl_max dv1 dvr : ℝ) (h0 : 0 < density) (h1 : 0 <
    wing_area) (h2 : 0 < cl_max) (h3 : 0 < mass) :
    HasDerivAt (fun t => out_vrot density wing_area mass t dv1 dvr) (J_vrot__cl_max density wing_area mass cl_max) cl_max := by
  simp only [out_vrot, J_vrot__cl_max, k]
  (apply hasDerivAt_of_eq; on_goal 1 => (repeat' comp_step))
  all_goals try comp_side
  all_goals try simp (disch := first | assumption | positivity) only [div_mul_eq_div_div, div_half, inv_half]
  all_goals try simp only [mul_zero, zero_mul, add_zero, zero_add, sub_zero, zero_sub, mul_one, one_mul]
  all_goals try push_cast
  all_goals comp_eq

theorem d_vrot__dv1 (density wing_area mass cl_max dv1 dvr : ℝ) (h0 : 0 < density) (h1 : 0 <
    wing_area) (h2 : 0 < cl_max) (h3 : 0 < mass) :
    HasDerivAt (fun t => out_vrot density wing_area mass cl_max t dvr) (J_vrot__dv1) dv1 := by
  simp only [out_vrot, J_vrot__dv1]
  (apply hasDerivAt_of_eq; on_goal 1 => (repeat' comp_step))
  all_goals try comp_side
  all_goals try simp (disch := first | assumption | positivity) only [div_mul_eq_div_div, div_half, inv_half]
  all_goals try simp only [mul_zero, zero_mul, add_zero, zero_add, sub_zero, zero_sub, mul_one, one_mul]
  all_goals try push_cast
  all_goals comp_eq

theorem d_vrot__dvr (density wing_area mass cl_max dv1 dvr : ℝ) (h0 : 0 < density) (h1 : 0 <
    wing_area) (h2 : 0 < cl_max) (h3 : 0 < mass) :
    HasDerivAt (fun t => out_vrot density wing_area mass cl_max dv1 t) (J_vrot__dvr) dvr := by
  simp only [out_vrot, J_vrot__dvr]
  (apply hasDerivAt_of_eq; on_goal 1 => (repeat' comp_step))
  all_goals try comp_side
  all_goals try simp (disch := first | assumption | positivity) only [div_mul_eq_div_div, div_half, inv_half]
  all_goals try simp only [mul_zero, zero_mul, add_zero, zero_add, sub_zero, zero_sub, mul_one, one_mul]
  all_goals try push_cast
  all_goals comp_eq

/-- Every partial derivative set by `VRotateComp` is the derivative of its output. -/
theorem partials (density wing_area mass cl_max dv1 dvr : ℝ) (h0 : 0 < density) (h1 : 0 <
    wing_area) (h2 : 0 < cl_max) (h3 : 0 < mass) :
    HasDerivAt (fun t => out_vrot t wing_area mass cl_max dv1 dvr) (J_vrot__density density wing_area
      mass cl_max) density ∧
    HasDerivAt (fun t => out_vrot density t mass cl_max dv1 dvr) (J_vrot__wing_area density wing_area
      mass cl_max) wing_area ∧
    HasDerivAt (fun t => out_vrot density wing_area t cl_max dv1 dvr) (J_vrot__mass density wing_area
      mass cl_max) mass ∧
    HasDerivAt (fun t => out_vrot density wing_area mass t dv1 dvr) (J_vrot__cl_max density wing_area
      mass cl_max) cl_max ∧
    HasDerivAt (fun t => out_vrot density wing_area mass cl_max t dvr) (J_vrot__dv1) dv1 ∧
    HasDerivAt (fun t => out_vrot density wing_area mass cl_max dv1 t) (J_vrot__dvr) dvr :=
  ⟨d_vrot__density _ _ _ _ _ _ h0 h1 h2 h3, d_vrot__wing_area _ _ _ _ _ _ h0 h1 h2 h3,
    d_vrot__mass _ _ _ _ _ _ h0 h1 h2 h3, d_vrot__cl_max _ _ _ _ _ _ h0 h1 h2 h3, d_vrot__dv1 _ _
    _ _ _ _ h0 h1 h2 h3, d_vrot__dvr _ _ _ _ _ _ h0 h1 h2 h3⟩

example : ∃ density wing_area mass cl_max dv1 dvr : ℝ,
      0 < density ∧
      0 < wing_area ∧
      0 < cl_max ∧
      0 < mass :=
  ⟨1, 1, 1, 1, 0, 0, by comp_example, by comp_example, by comp_example, by comp_example⟩

end Verif.Comp.MissionTwoDofOdeVRotateComp.VRotateComp

