import Verif.Lemmas.CompDeriv

/-! # Partial derivatives of the components of `aviary/subsystems/aerodynamics/flops_based/tabular_aero_group.py`

One node of a vector component is modelled over the real numbers.  Each option that selects a
branch is fixed, one namespace per choice.  `out_x` is the output `x`, `J_x__y` the entry that
`compute_partials` (or `declare_partials` with `val`) assigns, `d_x__y` the proof that the entry is
the derivative.  Inputs an output does not take as argument have no influence on it. -/

set_option linter.all false

namespace Verif.Comp.AerodynamicsFlopsBasedTabularAeroGroup._DynamicPressure
open Real

/-- Output `atmosphere_dynamic_pressure` of `_DynamicPressure.compute`, aviary/subsystems/aerodynamics/flops_based/tabular_aero_group.py:224 -/
noncomputable def out_atmosphere_dynamic_pressure (mission_velocity atmosphere_density : ℝ) : ℝ :=
  ((1 / 2) * atmosphere_density) * (mission_velocity ^ 2)

/-- Partial of `atmosphere_dynamic_pressure` with respect to `mission_velocity` as set by `_DynamicPressure`, aviary/subsystems/aerodynamics/flops_based/tabular_aero_group.py:230 -/
noncomputable def J_atmosphere_dynamic_pressure__mission_velocity (mission_velocity atmosphere_density : ℝ) : ℝ :=
  atmosphere_density * mission_velocity

/-- Partial of `atmosphere_dynamic_pressure` with respect to `atmosphere_density` as set by `_DynamicPressure`, aviary/subsystems/aerodynamics/flops_based/tabular_aero_group.py:231 -/
noncomputable def J_atmosphere_dynamic_pressure__atmosphere_density (mission_velocity : ℝ) : ℝ :=
  (1 / 2) * (mission_velocity ^ 2)

theorem d_atmosphere_dynamic_pressure__mission_velocity (mission_velocity atmosphere_density : ℝ)
    :
    HasDerivAt (fun t => out_atmosphere_dynamic_pressure t atmosphere_density) (J_atmosphere_dynamic_pressure__mission_velocity mission_velocity atmosphere_density) mission_velocity := by
  simp only [out_atmosphere_dynamic_pressure, J_atmosphere_dynamic_pressure__mission_velocity]
  (apply hasDerivAt_of_eq; on_goal 1 => (repeat' comp_step))
  all_goals try comp_side
  all_goals try simp only [mul_zero, zero_mul, add_zero, zero_add, sub_zero, zero_sub, mul_one, one_mul]
  all_goals try push_cast
  all_goals comp_eq

theorem d_atmosphere_dynamic_pressure__atmosphere_density (mission_velocity atmosphere_density :
    ℝ)  :
    HasDerivAt (fun t => out_atmosphere_dynamic_pressure mission_velocity t) (J_atmosphere_dynamic_pressure__atmosphere_density mission_velocity) atmosphere_density := by
  simp only [out_atmosphere_dynamic_pressure, J_atmosphere_dynamic_pressure__atmosphere_density]
  (apply hasDerivAt_of_eq; on_goal 1 => (repeat' comp_step))
  all_goals try comp_side
  all_goals try simp only [mul_zero, zero_mul, add_zero, zero_add, sub_zero, zero_sub, mul_one, one_mul]
  all_goals try push_cast
  all_goals comp_eq

/-- Every partial derivative set by `_DynamicPressure` is the derivative of its output. -/
theorem partials (mission_velocity atmosphere_density : ℝ) :
    HasDerivAt (fun t => out_atmosphere_dynamic_pressure t atmosphere_density)
      (J_atmosphere_dynamic_pressure__mission_velocity mission_velocity atmosphere_density)
      mission_velocity ∧
    HasDerivAt (fun t => out_atmosphere_dynamic_pressure mission_velocity t)
      (J_atmosphere_dynamic_pressure__atmosphere_density mission_velocity) atmosphere_density :=
  ⟨d_atmosphere_dynamic_pressure__mission_velocity _ _,
    d_atmosphere_dynamic_pressure__atmosphere_density _ _⟩

end Verif.Comp.AerodynamicsFlopsBasedTabularAeroGroup._DynamicPressure

