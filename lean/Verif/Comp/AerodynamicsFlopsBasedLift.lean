import Verif.Lemmas.CompDeriv

/-! # Partial derivatives of the components of `aviary/subsystems/aerodynamics/flops_based/lift.py`

One node of a vector component is modelled over the real numbers.  Each option that selects a
branch is fixed, one namespace per choice.  `out_x` is the output `x`, `J_x__y` the entry that
`compute_partials` (or `declare_partials` with `val`) assigns, `d_x__y` the proof that the entry is
the derivative.  Inputs an output does not take as argument have no influence on it. -/

set_option linter.all false

namespace Verif.Comp.AerodynamicsFlopsBasedLift.LiftEqualsWeight
open Real

/-- aviary/subsystems/aerodynamics/flops_based/lift.py:109 -/
noncomputable def weight (gravity vehicle_mass : ℝ) : ℝ := gravity * vehicle_mass

/-- aviary/subsystems/aerodynamics/flops_based/lift.py:122 -/
noncomputable def f (gravity atmosphere_dynamic_pressure vehicle_mass : ℝ) : ℝ :=
  (weight gravity vehicle_mass) / atmosphere_dynamic_pressure

/-- aviary/subsystems/aerodynamics/flops_based/lift.py:130 -/
noncomputable def f_2 (gravity wing_area vehicle_mass : ℝ) : ℝ :=
  (weight gravity vehicle_mass) / wing_area

/-- Output `vehicle_lift_coefficient` of `LiftEqualsWeight.compute`, aviary/subsystems/aerodynamics/flops_based/lift.py:111 -/
noncomputable def out_vehicle_lift_coefficient (gravity wing_area atmosphere_dynamic_pressure vehicle_mass : ℝ) : ℝ :=
  (weight gravity vehicle_mass) / (atmosphere_dynamic_pressure * wing_area)

/-- Output `vehicle_lift` of `LiftEqualsWeight.compute`, aviary/subsystems/aerodynamics/flops_based/lift.py:113 -/
noncomputable def out_vehicle_lift (gravity vehicle_mass : ℝ) : ℝ := weight gravity vehicle_mass

/-- Partial of `vehicle_lift` with respect to `vehicle_mass` as set by `LiftEqualsWeight`, aviary/subsystems/aerodynamics/flops_based/lift.py:85 -/
noncomputable def J_vehicle_lift__vehicle_mass (gravity : ℝ) : ℝ := gravity

/-- Partial of `vehicle_lift_coefficient` with respect to `wing_area` as set by `LiftEqualsWeight`, aviary/subsystems/aerodynamics/flops_based/lift.py:126 -/
noncomputable def J_vehicle_lift_coefficient__wing_area (gravity wing_area atmosphere_dynamic_pressure vehicle_mass : ℝ) : ℝ :=
  (-(f gravity atmosphere_dynamic_pressure vehicle_mass)) / (wing_area ^ 2)

/-- Partial of `vehicle_lift_coefficient` with respect to `vehicle_mass` as set by `LiftEqualsWeight`, aviary/subsystems/aerodynamics/flops_based/lift.py:128 -/
noncomputable def J_vehicle_lift_coefficient__vehicle_mass (gravity wing_area atmosphere_dynamic_pressure : ℝ) : ℝ :=
  gravity / (atmosphere_dynamic_pressure * wing_area)

/-- Partial of `vehicle_lift_coefficient` with respect to `atmosphere_dynamic_pressure` as set by `LiftEqualsWeight`, aviary/subsystems/aerodynamics/flops_based/lift.py:134 -/
noncomputable def J_vehicle_lift_coefficient__atmosphere_dynamic_pressure (gravity wing_area atmosphere_dynamic_pressure vehicle_mass : ℝ) : ℝ :=
  (-(f_2 gravity wing_area vehicle_mass)) / (atmosphere_dynamic_pressure ^ 2)

theorem d_vehicle_lift_coefficient__wing_area (gravity wing_area atmosphere_dynamic_pressure
    vehicle_mass : ℝ) (h0 : 0 < atmosphere_dynamic_pressure) (h1 : 0 < wing_area) :
    HasDerivAt (fun t => out_vehicle_lift_coefficient gravity t atmosphere_dynamic_pressure vehicle_mass) (J_vehicle_lift_coefficient__wing_area gravity wing_area atmosphere_dynamic_pressure vehicle_mass) wing_area := by
  simp only [out_vehicle_lift_coefficient, J_vehicle_lift_coefficient__wing_area, f, weight]
  (apply hasDerivAt_of_eq; on_goal 1 => (repeat' comp_step))
  all_goals try comp_side
  all_goals try simp only [mul_zero, zero_mul, add_zero, zero_add, sub_zero, zero_sub, mul_one, one_mul]
  all_goals try push_cast
  all_goals comp_eq

theorem d_vehicle_lift_coefficient__atmosphere_dynamic_pressure (gravity wing_area
    atmosphere_dynamic_pressure vehicle_mass : ℝ) (h0 : 0 < atmosphere_dynamic_pressure) (h1 : 0 <
    wing_area) :
    HasDerivAt (fun t => out_vehicle_lift_coefficient gravity wing_area t vehicle_mass) (J_vehicle_lift_coefficient__atmosphere_dynamic_pressure gravity wing_area atmosphere_dynamic_pressure vehicle_mass) atmosphere_dynamic_pressure := by
  simp only [out_vehicle_lift_coefficient, J_vehicle_lift_coefficient__atmosphere_dynamic_pressure, f_2, weight]
  (apply hasDerivAt_of_eq; on_goal 1 => (repeat' comp_step))
  all_goals try comp_side
  all_goals try simp only [mul_zero, zero_mul, add_zero, zero_add, sub_zero, zero_sub, mul_one, one_mul]
  all_goals try push_cast
  all_goals comp_eq

theorem d_vehicle_lift_coefficient__vehicle_mass (gravity wing_area atmosphere_dynamic_pressure
    vehicle_mass : ℝ) (h0 : 0 < atmosphere_dynamic_pressure) (h1 : 0 < wing_area) :
    HasDerivAt (fun t => out_vehicle_lift_coefficient gravity wing_area atmosphere_dynamic_pressure t) (J_vehicle_lift_coefficient__vehicle_mass gravity wing_area atmosphere_dynamic_pressure) vehicle_mass := by
  simp only [out_vehicle_lift_coefficient, J_vehicle_lift_coefficient__vehicle_mass, weight]
  (apply hasDerivAt_of_eq; on_goal 1 => (repeat' comp_step))
  all_goals try comp_side
  all_goals try simp only [mul_zero, zero_mul, add_zero, zero_add, sub_zero, zero_sub, mul_one, one_mul]
  all_goals try push_cast
  all_goals comp_eq

theorem d_vehicle_lift__vehicle_mass (gravity vehicle_mass : ℝ)  :
    HasDerivAt (fun t => out_vehicle_lift gravity t) (J_vehicle_lift__vehicle_mass gravity) vehicle_mass := by
  simp only [out_vehicle_lift, J_vehicle_lift__vehicle_mass, weight]
  (apply hasDerivAt_of_eq; on_goal 1 => (repeat' comp_step))
  all_goals try comp_side
  all_goals try simp only [mul_zero, zero_mul, add_zero, zero_add, sub_zero, zero_sub, mul_one, one_mul]
  all_goals try push_cast
  all_goals comp_eq

/-- Every partial derivative set by `LiftEqualsWeight` is the derivative of its output. -/
theorem partials (gravity wing_area atmosphere_dynamic_pressure vehicle_mass : ℝ) (h0 : 0 <
    atmosphere_dynamic_pressure) (h1 : 0 < wing_area) :
    HasDerivAt (fun t => out_vehicle_lift_coefficient gravity t atmosphere_dynamic_pressure
      vehicle_mass) (J_vehicle_lift_coefficient__wing_area gravity wing_area
      atmosphere_dynamic_pressure vehicle_mass) wing_area ∧
    HasDerivAt (fun t => out_vehicle_lift_coefficient gravity wing_area t vehicle_mass)
      (J_vehicle_lift_coefficient__atmosphere_dynamic_pressure gravity wing_area
      atmosphere_dynamic_pressure vehicle_mass) atmosphere_dynamic_pressure ∧
    HasDerivAt (fun t => out_vehicle_lift_coefficient gravity wing_area atmosphere_dynamic_pressure t)
      (J_vehicle_lift_coefficient__vehicle_mass gravity wing_area atmosphere_dynamic_pressure)
      vehicle_mass ∧
    HasDerivAt (fun t => out_vehicle_lift gravity t) (J_vehicle_lift__vehicle_mass gravity)
      vehicle_mass :=
  ⟨d_vehicle_lift_coefficient__wing_area _ _ _ _ h0 h1,
    d_vehicle_lift_coefficient__atmosphere_dynamic_pressure _ _ _ _ h0 h1,
    d_vehicle_lift_coefficient__vehicle_mass _ _ _ _ h0 h1, d_vehicle_lift__vehicle_mass _ _⟩

example : ∃ gravity wing_area atmosphere_dynamic_pressure vehicle_mass : ℝ,
      0 < atmosphere_dynamic_pressure ∧
      0 < wing_area :=
  ⟨0, 1, 1, 0, by comp_example, by comp_example⟩

end Verif.Comp.AerodynamicsFlopsBasedLift.LiftEqualsWeight

namespace Verif.Comp.AerodynamicsFlopsBasedLift.SimpleLift
open Real

/-- Output `vehicle_lift` of `SimpleLift.compute`, aviary/subsystems/aerodynamics/flops_based/lift.py:44 -/
noncomputable def out_vehicle_lift (wing_area atmosphere_dynamic_pressure vehicle_lift_coefficient : ℝ) : ℝ :=
  (atmosphere_dynamic_pressure * wing_area) * vehicle_lift_coefficient

/-- Partial of `vehicle_lift` with respect to `wing_area` as set by `SimpleLift`, aviary/subsystems/aerodynamics/flops_based/lift.py:51 -/
noncomputable def J_vehicle_lift__wing_area (atmosphere_dynamic_pressure vehicle_lift_coefficient : ℝ) : ℝ :=
  atmosphere_dynamic_pressure * vehicle_lift_coefficient

/-- Partial of `vehicle_lift` with respect to `atmosphere_dynamic_pressure` as set by `SimpleLift`, aviary/subsystems/aerodynamics/flops_based/lift.py:52 -/
noncomputable def J_vehicle_lift__atmosphere_dynamic_pressure (wing_area vehicle_lift_coefficient : ℝ) : ℝ :=
  wing_area * vehicle_lift_coefficient

/-- Partial of `vehicle_lift` with respect to `vehicle_lift_coefficient` as set by `SimpleLift`, aviary/subsystems/aerodynamics/flops_based/lift.py:53 -/
noncomputable def J_vehicle_lift__vehicle_lift_coefficient (wing_area atmosphere_dynamic_pressure : ℝ) : ℝ :=
  atmosphere_dynamic_pressure * wing_area

theorem d_vehicle_lift__wing_area (wing_area atmosphere_dynamic_pressure vehicle_lift_coefficient
    : ℝ)  :
    HasDerivAt (fun t => out_vehicle_lift t atmosphere_dynamic_pressure vehicle_lift_coefficient) (J_vehicle_lift__wing_area atmosphere_dynamic_pressure vehicle_lift_coefficient) wing_area := by
  simp only [out_vehicle_lift, J_vehicle_lift__wing_area]
  (apply hasDerivAt_of_eq; on_goal 1 => (repeat' comp_step))
  all_goals try comp_side
  all_goals try simp only [mul_zero, zero_mul, add_zero, zero_add, sub_zero, zero_sub, mul_one, one_mul]
  all_goals try push_cast
  all_goals comp_eq

theorem d_vehicle_lift__atmosphere_dynamic_pressure (wing_area atmosphere_dynamic_pressure
    vehicle_lift_coefficient : ℝ)  :
    HasDerivAt (fun t => out_vehicle_lift wing_area t vehicle_lift_coefficient) (J_vehicle_lift__atmosphere_dynamic_pressure wing_area vehicle_lift_coefficient) atmosphere_dynamic_pressure := by
  simp only [out_vehicle_lift, J_vehicle_lift__atmosphere_dynamic_pressure]
  (apply hasDerivAt_of_eq; on_goal 1 => (repeat' comp_step))
  all_goals try comp_side
  all_goals try simp only [mul_zero, zero_mul, add_zero, zero_add, sub_zero, zero_sub, mul_one, one_mul]
  all_goals try push_cast
  all_goals comp_eq

theorem d_vehicle_lift__vehicle_lift_coefficient (wing_area atmosphere_dynamic_pressure
    vehicle_lift_coefficient : ℝ)  :
    HasDerivAt (fun t => out_vehicle_lift wing_area atmosphere_dynamic_pressure t) (J_vehicle_lift__vehicle_lift_coefficient wing_area atmosphere_dynamic_pressure) vehicle_lift_coefficient := by
  simp only [out_vehicle_lift, J_vehicle_lift__vehicle_lift_coefficient]
  (apply hasDerivAt_of_eq; on_goal 1 => (repeat' comp_step))
  all_goals try comp_side
  all_goals try simp only [mul_zero, zero_mul, add_zero, zero_add, sub_zero, zero_sub, mul_one, one_mul]
  all_goals try push_cast
  all_goals comp_eq

/-- Every partial derivative set by `SimpleLift` is the derivative of its output. -/
theorem partials (wing_area atmosphere_dynamic_pressure vehicle_lift_coefficient : ℝ) :
    HasDerivAt (fun t => out_vehicle_lift t atmosphere_dynamic_pressure vehicle_lift_coefficient)
      (J_vehicle_lift__wing_area atmosphere_dynamic_pressure vehicle_lift_coefficient) wing_area ∧
    HasDerivAt (fun t => out_vehicle_lift wing_area t vehicle_lift_coefficient)
      (J_vehicle_lift__atmosphere_dynamic_pressure wing_area vehicle_lift_coefficient)
      atmosphere_dynamic_pressure ∧
    HasDerivAt (fun t => out_vehicle_lift wing_area atmosphere_dynamic_pressure t)
      (J_vehicle_lift__vehicle_lift_coefficient wing_area atmosphere_dynamic_pressure)
      vehicle_lift_coefficient :=
  ⟨d_vehicle_lift__wing_area _ _ _, d_vehicle_lift__atmosphere_dynamic_pressure _ _ _,
    d_vehicle_lift__vehicle_lift_coefficient _ _ _⟩

end Verif.Comp.AerodynamicsFlopsBasedLift.SimpleLift

