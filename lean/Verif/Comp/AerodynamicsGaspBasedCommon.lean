import Verif.Lemmas.CompDeriv

/-! # Partial derivatives of the components of `aviary/subsystems/aerodynamics/gasp_based/common.py`

One node of a vector component is modelled over the real numbers.  Each option that selects a
branch is fixed, one namespace per choice.  `out_x` is the output `x`, `J_x__y` the entry that
`compute_partials` (or `declare_partials` with `val`) assigns, `d_x__y` the proof that the entry is
the derivative.  Inputs an output does not take as argument have no influence on it. -/

set_option linter.all false

namespace Verif.Comp.AerodynamicsGaspBasedCommon.AeroForces
open Real

/-- Output `vehicle_lift` of `AeroForces.compute`, aviary/subsystems/aerodynamics/gasp_based/common.py:47 -/
noncomputable def out_vehicle_lift (vehicle_lift_coefficient atmosphere_dynamic_pressure wing_area : ℝ) : ℝ :=
  (atmosphere_dynamic_pressure * vehicle_lift_coefficient) * wing_area

/-- Output `vehicle_drag` of `AeroForces.compute`, aviary/subsystems/aerodynamics/gasp_based/common.py:48 -/
noncomputable def out_vehicle_drag (vehicle_drag_coefficient atmosphere_dynamic_pressure wing_area : ℝ) : ℝ :=
  (atmosphere_dynamic_pressure * vehicle_drag_coefficient) * wing_area

/-- Partial of `vehicle_lift` with respect to `vehicle_lift_coefficient` as set by `AeroForces`, aviary/subsystems/aerodynamics/gasp_based/common.py:53 -/
noncomputable def J_vehicle_lift__vehicle_lift_coefficient (atmosphere_dynamic_pressure wing_area : ℝ) : ℝ :=
  atmosphere_dynamic_pressure * wing_area

/-- Partial of `vehicle_lift` with respect to `atmosphere_dynamic_pressure` as set by `AeroForces`, aviary/subsystems/aerodynamics/gasp_based/common.py:54 -/
noncomputable def J_vehicle_lift__atmosphere_dynamic_pressure (vehicle_lift_coefficient wing_area : ℝ) : ℝ :=
  vehicle_lift_coefficient * wing_area

/-- Partial of `vehicle_lift` with respect to `wing_area` as set by `AeroForces`, aviary/subsystems/aerodynamics/gasp_based/common.py:55 -/
noncomputable def J_vehicle_lift__wing_area (vehicle_lift_coefficient atmosphere_dynamic_pressure : ℝ) : ℝ :=
  atmosphere_dynamic_pressure * vehicle_lift_coefficient

/-- Partial of `vehicle_drag` with respect to `vehicle_drag_coefficient` as set by `AeroForces`, aviary/subsystems/aerodynamics/gasp_based/common.py:57 -/
noncomputable def J_vehicle_drag__vehicle_drag_coefficient (atmosphere_dynamic_pressure wing_area : ℝ) : ℝ :=
  atmosphere_dynamic_pressure * wing_area

/-- Partial of `vehicle_drag` with respect to `atmosphere_dynamic_pressure` as set by `AeroForces`, aviary/subsystems/aerodynamics/gasp_based/common.py:58 -/
noncomputable def J_vehicle_drag__atmosphere_dynamic_pressure (vehicle_drag_coefficient wing_area : ℝ) : ℝ :=
  vehicle_drag_coefficient * wing_area

/-- Partial of `vehicle_drag` with respect to `wing_area` as set by `AeroForces`, aviary/subsystems/aerodynamics/gasp_based/common.py:59 -/
noncomputable def J_vehicle_drag__wing_area (vehicle_drag_coefficient atmosphere_dynamic_pressure : ℝ) : ℝ :=
  atmosphere_dynamic_pressure * vehicle_drag_coefficient

theorem d_vehicle_lift__vehicle_lift_coefficient (vehicle_lift_coefficient
    atmosphere_dynamic_pressure wing_area : ℝ)  :
    HasDerivAt (fun t => out_vehicle_lift t atmosphere_dynamic_pressure wing_area) (J_vehicle_lift__vehicle_lift_coefficient atmosphere_dynamic_pressure wing_area) vehicle_lift_coefficient := by
  simp only [out_vehicle_lift, J_vehicle_lift__vehicle_lift_coefficient]
  (apply hasDerivAt_of_eq; on_goal 1 => (repeat' comp_step))
  all_goals try comp_side
  all_goals try simp only [mul_zero, zero_mul, add_zero, zero_add, sub_zero, zero_sub, mul_one, one_mul]
  all_goals try push_cast
  all_goals comp_eq

theorem d_vehicle_lift__atmosphere_dynamic_pressure (vehicle_lift_coefficient
    atmosphere_dynamic_pressure wing_area : ℝ)  :
    HasDerivAt (fun t => out_vehicle_lift vehicle_lift_coefficient t wing_area) (J_vehicle_lift__atmosphere_dynamic_pressure vehicle_lift_coefficient wing_area) atmosphere_dynamic_pressure := by
  simp only [out_vehicle_lift, J_vehicle_lift__atmosphere_dynamic_pressure]
  (apply hasDerivAt_of_eq; on_goal 1 => (repeat' comp_step))
  all_goals try comp_side
  all_goals try simp only [mul_zero, zero_mul, add_zero, zero_add, sub_zero, zero_sub, mul_one, one_mul]
  all_goals try push_cast
  all_goals comp_eq

theorem d_vehicle_lift__wing_area (vehicle_lift_coefficient atmosphere_dynamic_pressure wing_area
    : ℝ)  :
    HasDerivAt (fun t => out_vehicle_lift vehicle_lift_coefficient atmosphere_dynamic_pressure t) (J_vehicle_lift__wing_area vehicle_lift_coefficient atmosphere_dynamic_pressure) wing_area := by
  simp only [out_vehicle_lift, J_vehicle_lift__wing_area]
  (apply hasDerivAt_of_eq; on_goal 1 => (repeat' comp_step))
  all_goals try comp_side
  all_goals try simp only [mul_zero, zero_mul, add_zero, zero_add, sub_zero, zero_sub, mul_one, one_mul]
  all_goals try push_cast
  all_goals comp_eq

theorem d_vehicle_drag__vehicle_drag_coefficient (vehicle_drag_coefficient
    atmosphere_dynamic_pressure wing_area : ℝ)  :
    HasDerivAt (fun t => out_vehicle_drag t atmosphere_dynamic_pressure wing_area) (J_vehicle_drag__vehicle_drag_coefficient atmosphere_dynamic_pressure wing_area) vehicle_drag_coefficient := by
  simp only [out_vehicle_drag, J_vehicle_drag__vehicle_drag_coefficient]
  (apply hasDerivAt_of_eq; on_goal 1 => (repeat' comp_step))
  all_goals try comp_side
  all_goals try simp only [mul_zero, zero_mul, add_zero, zero_add, sub_zero, zero_sub, mul_one, one_mul]
  all_goals try push_cast
  all_goals comp_eq

theorem d_vehicle_drag__atmosphere_dynamic_pressure (vehicle_drag_coefficient
    atmosphere_dynamic_pressure wing_area : ℝ)  :
    HasDerivAt (fun t => out_vehicle_drag vehicle_drag_coefficient t wing_area) (J_vehicle_drag__atmosphere_dynamic_pressure vehicle_drag_coefficient wing_area) atmosphere_dynamic_pressure := by
  simp only [out_vehicle_drag, J_vehicle_drag__atmosphere_dynamic_pressure]
  (apply hasDerivAt_of_eq; on_goal 1 => (repeat' comp_step))
  all_goals try comp_side
  all_goals try simp only [mul_zero, zero_mul, add_zero, zero_add, sub_zero, zero_sub, mul_one, one_mul]
  all_goals try push_cast
  all_goals comp_eq

theorem d_vehicle_drag__wing_area (vehicle_drag_coefficient atmosphere_dynamic_pressure wing_area
    : ℝ)  :
    HasDerivAt (fun t => out_vehicle_drag vehicle_drag_coefficient atmosphere_dynamic_pressure t) (J_vehicle_drag__wing_area vehicle_drag_coefficient atmosphere_dynamic_pressure) wing_area := by
  simp only [out_vehicle_drag, J_vehicle_drag__wing_area]
  (apply hasDerivAt_of_eq; on_goal 1 => (repeat' comp_step))
  all_goals try comp_side
  all_goals try simp only [mul_zero, zero_mul, add_zero, zero_add, sub_zero, zero_sub, mul_one, one_mul]
  all_goals try push_cast
  all_goals comp_eq

/-- Every partial derivative set by `AeroForces` is the derivative of its output. -/
theorem partials (vehicle_lift_coefficient vehicle_drag_coefficient atmosphere_dynamic_pressure
    wing_area : ℝ) :
    HasDerivAt (fun t => out_vehicle_lift t atmosphere_dynamic_pressure wing_area)
      (J_vehicle_lift__vehicle_lift_coefficient atmosphere_dynamic_pressure wing_area)
      vehicle_lift_coefficient ∧
    HasDerivAt (fun t => out_vehicle_lift vehicle_lift_coefficient t wing_area)
      (J_vehicle_lift__atmosphere_dynamic_pressure vehicle_lift_coefficient wing_area)
      atmosphere_dynamic_pressure ∧
    HasDerivAt (fun t => out_vehicle_lift vehicle_lift_coefficient atmosphere_dynamic_pressure t)
      (J_vehicle_lift__wing_area vehicle_lift_coefficient atmosphere_dynamic_pressure) wing_area ∧
    HasDerivAt (fun t => out_vehicle_drag t atmosphere_dynamic_pressure wing_area)
      (J_vehicle_drag__vehicle_drag_coefficient atmosphere_dynamic_pressure wing_area)
      vehicle_drag_coefficient ∧
    HasDerivAt (fun t => out_vehicle_drag vehicle_drag_coefficient t wing_area)
      (J_vehicle_drag__atmosphere_dynamic_pressure vehicle_drag_coefficient wing_area)
      atmosphere_dynamic_pressure ∧
    HasDerivAt (fun t => out_vehicle_drag vehicle_drag_coefficient atmosphere_dynamic_pressure t)
      (J_vehicle_drag__wing_area vehicle_drag_coefficient atmosphere_dynamic_pressure) wing_area :=
  ⟨d_vehicle_lift__vehicle_lift_coefficient _ _ _, d_vehicle_lift__atmosphere_dynamic_pressure _ _
    _, d_vehicle_lift__wing_area _ _ _, d_vehicle_drag__vehicle_drag_coefficient _ _ _,
    d_vehicle_drag__atmosphere_dynamic_pressure _ _ _, d_vehicle_drag__wing_area _ _ _⟩

end Verif.Comp.AerodynamicsGaspBasedCommon.AeroForces

namespace Verif.Comp.AerodynamicsGaspBasedCommon.CLFromLift
open Real

/-- Output `vehicle_lift_coefficient` of `CLFromLift.compute`, aviary/subsystems/aerodynamics/gasp_based/common.py:94 -/
noncomputable def out_vehicle_lift_coefficient (lift_req atmosphere_dynamic_pressure wing_area : ℝ) : ℝ :=
  lift_req / (atmosphere_dynamic_pressure * wing_area)

/-- Partial of `vehicle_lift_coefficient` with respect to `lift_req` as set by `CLFromLift`, aviary/subsystems/aerodynamics/gasp_based/common.py:98 -/
noncomputable def J_vehicle_lift_coefficient__lift_req (atmosphere_dynamic_pressure wing_area : ℝ) : ℝ :=
  1 / (atmosphere_dynamic_pressure * wing_area)

/-- Partial of `vehicle_lift_coefficient` with respect to `atmosphere_dynamic_pressure` as set by `CLFromLift`, aviary/subsystems/aerodynamics/gasp_based/common.py:99 -/
noncomputable def J_vehicle_lift_coefficient__atmosphere_dynamic_pressure (lift_req atmosphere_dynamic_pressure wing_area : ℝ) : ℝ :=
  (-lift_req) / ((atmosphere_dynamic_pressure ^ 2) * wing_area)

/-- Partial of `vehicle_lift_coefficient` with respect to `wing_area` as set by `CLFromLift`, aviary/subsystems/aerodynamics/gasp_based/common.py:102 -/
noncomputable def J_vehicle_lift_coefficient__wing_area (lift_req atmosphere_dynamic_pressure wing_area : ℝ) : ℝ :=
  (-lift_req) / (atmosphere_dynamic_pressure * (wing_area ^ 2))

theorem d_vehicle_lift_coefficient__lift_req (lift_req atmosphere_dynamic_pressure wing_area : ℝ)
    (h0 : 0 < atmosphere_dynamic_pressure) (h1 : 0 < wing_area) :
    HasDerivAt (fun t => out_vehicle_lift_coefficient t atmosphere_dynamic_pressure wing_area) (J_vehicle_lift_coefficient__lift_req atmosphere_dynamic_pressure wing_area) lift_req := by
  simp only [out_vehicle_lift_coefficient, J_vehicle_lift_coefficient__lift_req]
  (apply hasDerivAt_of_eq; on_goal 1 => (repeat' comp_step))
  all_goals try comp_side
  all_goals try simp only [mul_zero, zero_mul, add_zero, zero_add, sub_zero, zero_sub, mul_one, one_mul]
  all_goals try push_cast
  all_goals comp_eq

theorem d_vehicle_lift_coefficient__atmosphere_dynamic_pressure (lift_req
    atmosphere_dynamic_pressure wing_area : ℝ) (h0 : 0 < atmosphere_dynamic_pressure) (h1 : 0 <
    wing_area) :
    HasDerivAt (fun t => out_vehicle_lift_coefficient lift_req t wing_area) (J_vehicle_lift_coefficient__atmosphere_dynamic_pressure lift_req atmosphere_dynamic_pressure wing_area) atmosphere_dynamic_pressure := by
  simp only [out_vehicle_lift_coefficient, J_vehicle_lift_coefficient__atmosphere_dynamic_pressure]
  (apply hasDerivAt_of_eq; on_goal 1 => (repeat' comp_step))
  all_goals try comp_side
  all_goals try simp only [mul_zero, zero_mul, add_zero, zero_add, sub_zero, zero_sub, mul_one, one_mul]
  all_goals try push_cast
  all_goals comp_eq

theorem d_vehicle_lift_coefficient__wing_area (lift_req atmosphere_dynamic_pressure wing_area : ℝ)
    (h0 : 0 < atmosphere_dynamic_pressure) (h1 : 0 < wing_area) :
    HasDerivAt (fun t => out_vehicle_lift_coefficient lift_req atmosphere_dynamic_pressure t) (J_vehicle_lift_coefficient__wing_area lift_req atmosphere_dynamic_pressure wing_area) wing_area := by
  simp only [out_vehicle_lift_coefficient, J_vehicle_lift_coefficient__wing_area]
  (apply hasDerivAt_of_eq; on_goal 1 => (repeat' comp_step))
  all_goals try comp_side
  all_goals try simp only [mul_zero, zero_mul, add_zero, zero_add, sub_zero, zero_sub, mul_one, one_mul]
  all_goals try push_cast
  all_goals comp_eq

/-- Every partial derivative set by `CLFromLift` is the derivative of its output. -/
theorem partials (lift_req atmosphere_dynamic_pressure wing_area : ℝ) (h0 : 0 <
    atmosphere_dynamic_pressure) (h1 : 0 < wing_area) :
    HasDerivAt (fun t => out_vehicle_lift_coefficient t atmosphere_dynamic_pressure wing_area)
      (J_vehicle_lift_coefficient__lift_req atmosphere_dynamic_pressure wing_area) lift_req ∧
    HasDerivAt (fun t => out_vehicle_lift_coefficient lift_req t wing_area)
      (J_vehicle_lift_coefficient__atmosphere_dynamic_pressure lift_req
      atmosphere_dynamic_pressure wing_area) atmosphere_dynamic_pressure ∧
    HasDerivAt (fun t => out_vehicle_lift_coefficient lift_req atmosphere_dynamic_pressure t)
      (J_vehicle_lift_coefficient__wing_area lift_req atmosphere_dynamic_pressure wing_area)
      wing_area :=
  ⟨d_vehicle_lift_coefficient__lift_req _ _ _ h0 h1,
    d_vehicle_lift_coefficient__atmosphere_dynamic_pressure _ _ _ h0 h1,
    d_vehicle_lift_coefficient__wing_area _ _ _ h0 h1⟩

example : ∃ lift_req atmosphere_dynamic_pressure wing_area : ℝ,
      0 < atmosphere_dynamic_pressure ∧
      0 < wing_area :=
  ⟨0, 1, 1, by comp_example, by comp_example⟩

end Verif.Comp.AerodynamicsGaspBasedCommon.CLFromLift

