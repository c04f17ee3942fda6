import Verif.Lemmas.CompDeriv

/-! # Partial derivatives of the components of `aviary/subsystems/aerodynamics/aero_common.py`

One node of a vector component is modelled over the real numbers.  Each option that selects a
branch is fixed, one namespace per choice.  `out_x` is the output `x`, `J_x__y` the entry that
`compute_partials` (or `declare_partials` with `val`) assigns, `d_x__y` the proof that the entry is
the derivative.  Inputs an output does not take as argument have no influence on it. -/

set_option linter.all false

namespace Verif.Comp.AerodynamicsAeroCommon.DynamicPressure
open Real

/-- Output `atmosphere_dynamic_pressure` of `DynamicPressure.compute`, aviary/subsystems/aerodynamics/aero_common.py:45 -/
noncomputable def out_atmosphere_dynamic_pressure (gamma atmosphere_static_pressure atmosphere_mach : ℝ) : ℝ :=
  (((1 / 2) * gamma) * atmosphere_static_pressure) * (atmosphere_mach ^ 2)

/-- Partial of `atmosphere_dynamic_pressure` with respect to `atmosphere_mach` as set by `DynamicPressure`, aviary/subsystems/aerodynamics/aero_common.py:52 -/
noncomputable def J_atmosphere_dynamic_pressure__atmosphere_mach (gamma atmosphere_static_pressure atmosphere_mach : ℝ) : ℝ :=
  (gamma * atmosphere_static_pressure) * atmosphere_mach

/-- Partial of `atmosphere_dynamic_pressure` with respect to `atmosphere_static_pressure` as set by `DynamicPressure`, aviary/subsystems/aerodynamics/aero_common.py:53 -/
noncomputable def J_atmosphere_dynamic_pressure__atmosphere_static_pressure (gamma atmosphere_mach : ℝ) : ℝ :=
  ((1 / 2) * gamma) * (atmosphere_mach ^ 2)

theorem d_atmosphere_dynamic_pressure__atmosphere_static_pressure (gamma
    atmosphere_static_pressure atmosphere_mach : ℝ)  :
    HasDerivAt (fun t => out_atmosphere_dynamic_pressure gamma t atmosphere_mach) (J_atmosphere_dynamic_pressure__atmosphere_static_pressure gamma atmosphere_mach) atmosphere_static_pressure := by
  simp only [out_atmosphere_dynamic_pressure, J_atmosphere_dynamic_pressure__atmosphere_static_pressure]
  (apply hasDerivAt_of_eq; on_goal 1 => (repeat' comp_step))
  all_goals try comp_side
  all_goals try simp only [mul_zero, zero_mul, add_zero, zero_add, sub_zero, zero_sub, mul_one, one_mul]
  all_goals try push_cast
  all_goals comp_eq

theorem d_atmosphere_dynamic_pressure__atmosphere_mach (gamma atmosphere_static_pressure
    atmosphere_mach : ℝ)  :
    HasDerivAt (fun t => out_atmosphere_dynamic_pressure gamma atmosphere_static_pressure t) (J_atmosphere_dynamic_pressure__atmosphere_mach gamma atmosphere_static_pressure atmosphere_mach) atmosphere_mach := by
  simp only [out_atmosphere_dynamic_pressure, J_atmosphere_dynamic_pressure__atmosphere_mach]
  (apply hasDerivAt_of_eq; on_goal 1 => (repeat' comp_step))
  all_goals try comp_side
  all_goals try simp only [mul_zero, zero_mul, add_zero, zero_add, sub_zero, zero_sub, mul_one, one_mul]
  all_goals try push_cast
  all_goals comp_eq

/-- Every partial derivative set by `DynamicPressure` is the derivative of its output. -/
theorem partials (gamma atmosphere_static_pressure atmosphere_mach : ℝ) :
    HasDerivAt (fun t => out_atmosphere_dynamic_pressure gamma t atmosphere_mach)
      (J_atmosphere_dynamic_pressure__atmosphere_static_pressure gamma atmosphere_mach)
      atmosphere_static_pressure ∧
    HasDerivAt (fun t => out_atmosphere_dynamic_pressure gamma atmosphere_static_pressure t)
      (J_atmosphere_dynamic_pressure__atmosphere_mach gamma atmosphere_static_pressure
      atmosphere_mach) atmosphere_mach :=
  ⟨d_atmosphere_dynamic_pressure__atmosphere_static_pressure _ _ _,
    d_atmosphere_dynamic_pressure__atmosphere_mach _ _ _⟩

end Verif.Comp.AerodynamicsAeroCommon.DynamicPressure

