import Verif.Lemmas.CompDeriv

/-! # Partial derivatives of the components of `aviary/models/external_subsystems/simple_aero/simple_drag.py`

One node of a vector component is modelled over the real numbers.  Each option that selects a
branch is fixed, one namespace per choice.  `out_x` is the output `x`, `J_x__y` the entry that
`compute_partials` (or `declare_partials` with `val`) assigns, `d_x__y` the proof that the entry is
the derivative.  Inputs an output does not take as argument have no influence on it. -/

set_option linter.all false

namespace Verif.Comp.ModelsExternalSubsystemsSimpleAeroSimpleDrag.SimpleDragCoeff
open Real

/-- Output `vehicle_drag_coefficient` of `SimpleDragCoeff.compute`, aviary/models/external_subsystems/simple_aero/simple_drag.py:45 -/
noncomputable def out_vehicle_drag_coefficient (cd_zero k vehicle_lift_coefficient : ℝ) : ℝ :=
  cd_zero + (k * (vehicle_lift_coefficient ^ 2))

/-- Partial of `vehicle_drag_coefficient` with respect to `vehicle_lift_coefficient` as set by `SimpleDragCoeff`, aviary/models/external_subsystems/simple_aero/simple_drag.py:52 -/
noncomputable def J_vehicle_drag_coefficient__vehicle_lift_coefficient (k vehicle_lift_coefficient : ℝ) : ℝ :=
  (2 * k) * vehicle_lift_coefficient

theorem d_vehicle_drag_coefficient__vehicle_lift_coefficient (cd_zero k vehicle_lift_coefficient :
    ℝ)  :
    HasDerivAt (fun t => out_vehicle_drag_coefficient cd_zero k t) (J_vehicle_drag_coefficient__vehicle_lift_coefficient k vehicle_lift_coefficient) vehicle_lift_coefficient := by
  simp only [out_vehicle_drag_coefficient, J_vehicle_drag_coefficient__vehicle_lift_coefficient]
  (apply hasDerivAt_of_eq; on_goal 1 => (repeat' comp_step))
  all_goals try comp_side
  all_goals try simp only [mul_zero, zero_mul, add_zero, zero_add, sub_zero, zero_sub, mul_one, one_mul]
  all_goals try push_cast
  all_goals comp_eq

/-- Every partial derivative set by `SimpleDragCoeff` is the derivative of its output. -/
theorem partials (cd_zero k vehicle_lift_coefficient : ℝ) :
    HasDerivAt (fun t => out_vehicle_drag_coefficient cd_zero k t)
      (J_vehicle_drag_coefficient__vehicle_lift_coefficient k vehicle_lift_coefficient)
      vehicle_lift_coefficient :=
  d_vehicle_drag_coefficient__vehicle_lift_coefficient _ _ _

end Verif.Comp.ModelsExternalSubsystemsSimpleAeroSimpleDrag.SimpleDragCoeff

