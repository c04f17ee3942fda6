import Verif.Lemmas.CompDeriv

/-! # Partial derivatives of the components of `aviary/subsystems/mass/gasp_based/hydraulics.py`

One node of a vector component is modelled over the real numbers.  Each option that selects a
branch is fixed, one namespace per choice.  `out_x` is the output `x`, `J_x__y` the entry that
`compute_partials` (or `declare_partials` with `val`) assigns, `d_x__y` the proof that the entry is
the derivative.  Inputs an output does not take as argument have no influence on it. -/

set_option linter.all false

namespace Verif.Comp.MassGaspBasedHydraulics.HydraulicsMass_landinggearfixedgear
open Real

/-- Output `hydraulics_mass` of `HydraulicsMass.compute`, aviary/subsystems/mass/gasp_based/hydraulics.py:40 -/
noncomputable def out_hydraulics_mass (hydraulics_flight_control_mass_coefficient controls_mass landinggear_total_mass hydraulics_gear_mass_coefficient : ℝ) : ℝ :=
  (hydraulics_flight_control_mass_coefficient * controls_mass) +
    ((hydraulics_gear_mass_coefficient * landinggear_total_mass) * 0)

/-- Partial of `hydraulics_mass` with respect to `landinggear_total_mass` as set by `HydraulicsMass`, aviary/subsystems/mass/gasp_based/hydraulics.py:53 -/
noncomputable def J_hydraulics_mass__landinggear_total_mass (hydraulics_gear_mass_coefficient : ℝ) : ℝ :=
  hydraulics_gear_mass_coefficient * 0

/-- Partial of `hydraulics_mass` with respect to `controls_mass` as set by `HydraulicsMass`, aviary/subsystems/mass/gasp_based/hydraulics.py:54 -/
noncomputable def J_hydraulics_mass__controls_mass (hydraulics_flight_control_mass_coefficient : ℝ) : ℝ :=
  hydraulics_flight_control_mass_coefficient

/-- Partial of `hydraulics_mass` with respect to `hydraulics_flight_control_mass_coefficient` as set by `HydraulicsMass`, aviary/subsystems/mass/gasp_based/hydraulics.py:55 -/
noncomputable def J_hydraulics_mass__hydraulics_flight_control_mass_coefficient (controls_mass : ℝ) : ℝ :=
  controls_mass

/-- Partial of `hydraulics_mass` with respect to `hydraulics_gear_mass_coefficient` as set by `HydraulicsMass`, aviary/subsystems/mass/gasp_based/hydraulics.py:58 -/
noncomputable def J_hydraulics_mass__hydraulics_gear_mass_coefficient (landinggear_total_mass : ℝ) : ℝ :=
  landinggear_total_mass * 0

theorem d_hydraulics_mass__hydraulics_flight_control_mass_coefficient
    (hydraulics_flight_control_mass_coefficient controls_mass landinggear_total_mass
    hydraulics_gear_mass_coefficient : ℝ)  :
    HasDerivAt (fun t => out_hydraulics_mass t controls_mass landinggear_total_mass hydraulics_gear_mass_coefficient) (J_hydraulics_mass__hydraulics_flight_control_mass_coefficient controls_mass) hydraulics_flight_control_mass_coefficient := by
  simp only [out_hydraulics_mass, J_hydraulics_mass__hydraulics_flight_control_mass_coefficient]
  (apply hasDerivAt_of_eq; on_goal 1 => (repeat' comp_step))
  all_goals try comp_side
  all_goals try simp (disch := first | assumption | positivity) only [mul_rpow, div_rpow]
  all_goals try simp only [mul_zero, zero_mul, add_zero, zero_add, sub_zero, zero_sub, mul_one, one_mul]
  all_goals try push_cast
  all_goals comp_eq

theorem d_hydraulics_mass__controls_mass (hydraulics_flight_control_mass_coefficient controls_mass
    landinggear_total_mass hydraulics_gear_mass_coefficient : ℝ)  :
    HasDerivAt (fun t => out_hydraulics_mass hydraulics_flight_control_mass_coefficient t landinggear_total_mass hydraulics_gear_mass_coefficient) (J_hydraulics_mass__controls_mass hydraulics_flight_control_mass_coefficient) controls_mass := by
  simp only [out_hydraulics_mass, J_hydraulics_mass__controls_mass]
  (apply hasDerivAt_of_eq; on_goal 1 => (repeat' comp_step))
  all_goals try comp_side
  all_goals try simp (disch := first | assumption | positivity) only [mul_rpow, div_rpow]
  all_goals try simp only [mul_zero, zero_mul, add_zero, zero_add, sub_zero, zero_sub, mul_one, one_mul]
  all_goals try push_cast
  all_goals comp_eq

theorem d_hydraulics_mass__landinggear_total_mass (hydraulics_flight_control_mass_coefficient
    controls_mass landinggear_total_mass hydraulics_gear_mass_coefficient : ℝ)  :
    HasDerivAt (fun t => out_hydraulics_mass hydraulics_flight_control_mass_coefficient controls_mass t hydraulics_gear_mass_coefficient) (J_hydraulics_mass__landinggear_total_mass hydraulics_gear_mass_coefficient) landinggear_total_mass := by
  simp only [out_hydraulics_mass, J_hydraulics_mass__landinggear_total_mass]
  (apply hasDerivAt_of_eq; on_goal 1 => (repeat' comp_step))
  all_goals try comp_side
  all_goals try simp (disch := first | assumption | positivity) only [mul_rpow, div_rpow]
  all_goals try simp only [mul_zero, zero_mul, add_zero, zero_add, sub_zero, zero_sub, mul_one, one_mul]
  all_goals try push_cast
  all_goals comp_eq

theorem d_hydraulics_mass__hydraulics_gear_mass_coefficient
    (hydraulics_flight_control_mass_coefficient controls_mass landinggear_total_mass
    hydraulics_gear_mass_coefficient : ℝ)  :
    HasDerivAt (fun t => out_hydraulics_mass hydraulics_flight_control_mass_coefficient controls_mass landinggear_total_mass t) (J_hydraulics_mass__hydraulics_gear_mass_coefficient landinggear_total_mass) hydraulics_gear_mass_coefficient := by
  simp only [out_hydraulics_mass, J_hydraulics_mass__hydraulics_gear_mass_coefficient]
  (apply hasDerivAt_of_eq; on_goal 1 => (repeat' comp_step))
  all_goals try comp_side
  all_goals try simp (disch := first | assumption | positivity) only [mul_rpow, div_rpow]
  all_goals try simp only [mul_zero, zero_mul, add_zero, zero_add, sub_zero, zero_sub, mul_one, one_mul]
  all_goals try push_cast
  all_goals comp_eq

/-- Every partial derivative set by `HydraulicsMass` is the derivative of its output. -/
theorem partials (hydraulics_flight_control_mass_coefficient controls_mass landinggear_total_mass
    hydraulics_gear_mass_coefficient : ℝ) :
    HasDerivAt (fun t => out_hydraulics_mass t controls_mass landinggear_total_mass
      hydraulics_gear_mass_coefficient)
      (J_hydraulics_mass__hydraulics_flight_control_mass_coefficient controls_mass)
      hydraulics_flight_control_mass_coefficient ∧
    HasDerivAt (fun t => out_hydraulics_mass hydraulics_flight_control_mass_coefficient t
      landinggear_total_mass hydraulics_gear_mass_coefficient) (J_hydraulics_mass__controls_mass
      hydraulics_flight_control_mass_coefficient) controls_mass ∧
    HasDerivAt (fun t => out_hydraulics_mass hydraulics_flight_control_mass_coefficient controls_mass
      t hydraulics_gear_mass_coefficient) (J_hydraulics_mass__landinggear_total_mass
      hydraulics_gear_mass_coefficient) landinggear_total_mass ∧
    HasDerivAt (fun t => out_hydraulics_mass hydraulics_flight_control_mass_coefficient controls_mass
      landinggear_total_mass t) (J_hydraulics_mass__hydraulics_gear_mass_coefficient
      landinggear_total_mass) hydraulics_gear_mass_coefficient :=
  ⟨d_hydraulics_mass__hydraulics_flight_control_mass_coefficient _ _ _ _,
    d_hydraulics_mass__controls_mass _ _ _ _, d_hydraulics_mass__landinggear_total_mass _ _ _ _,
    d_hydraulics_mass__hydraulics_gear_mass_coefficient _ _ _ _⟩

end Verif.Comp.MassGaspBasedHydraulics.HydraulicsMass_landinggearfixedgear

namespace Verif.Comp.MassGaspBasedHydraulics.HydraulicsMass_no_landinggearfixedgear
open Real

/-- Output `hydraulics_mass` of `HydraulicsMass.compute`, aviary/subsystems/mass/gasp_based/hydraulics.py:40 -/
noncomputable def out_hydraulics_mass (hydraulics_flight_control_mass_coefficient controls_mass landinggear_total_mass hydraulics_gear_mass_coefficient : ℝ) : ℝ :=
  (hydraulics_flight_control_mass_coefficient * controls_mass) +
    (hydraulics_gear_mass_coefficient * landinggear_total_mass)

/-- Partial of `hydraulics_mass` with respect to `landinggear_total_mass` as set by `HydraulicsMass`, aviary/subsystems/mass/gasp_based/hydraulics.py:53 -/
noncomputable def J_hydraulics_mass__landinggear_total_mass (hydraulics_gear_mass_coefficient : ℝ) : ℝ :=
  hydraulics_gear_mass_coefficient

/-- Partial of `hydraulics_mass` with respect to `controls_mass` as set by `HydraulicsMass`, aviary/subsystems/mass/gasp_based/hydraulics.py:54 -/
noncomputable def J_hydraulics_mass__controls_mass (hydraulics_flight_control_mass_coefficient : ℝ) : ℝ :=
  hydraulics_flight_control_mass_coefficient

/-- Partial of `hydraulics_mass` with respect to `hydraulics_flight_control_mass_coefficient` as set by `HydraulicsMass`, aviary/subsystems/mass/gasp_based/hydraulics.py:55 -/
noncomputable def J_hydraulics_mass__hydraulics_flight_control_mass_coefficient (controls_mass : ℝ) : ℝ :=
  controls_mass

/-- Partial of `hydraulics_mass` with respect to `hydraulics_gear_mass_coefficient` as set by `HydraulicsMass`, aviary/subsystems/mass/gasp_based/hydraulics.py:58 -/
noncomputable def J_hydraulics_mass__hydraulics_gear_mass_coefficient (landinggear_total_mass : ℝ) : ℝ :=
  landinggear_total_mass

theorem d_hydraulics_mass__hydraulics_flight_control_mass_coefficient
    (hydraulics_flight_control_mass_coefficient controls_mass landinggear_total_mass
    hydraulics_gear_mass_coefficient : ℝ)  :
    HasDerivAt (fun t => out_hydraulics_mass t controls_mass landinggear_total_mass hydraulics_gear_mass_coefficient) (J_hydraulics_mass__hydraulics_flight_control_mass_coefficient controls_mass) hydraulics_flight_control_mass_coefficient := by
  simp only [out_hydraulics_mass, J_hydraulics_mass__hydraulics_flight_control_mass_coefficient]
  (apply hasDerivAt_of_eq; on_goal 1 => (repeat' comp_step))
  all_goals try comp_side
  all_goals try simp (disch := first | assumption | positivity) only [mul_rpow, div_rpow]
  all_goals try simp only [mul_zero, zero_mul, add_zero, zero_add, sub_zero, zero_sub, mul_one, one_mul]
  all_goals try push_cast
  all_goals comp_eq

theorem d_hydraulics_mass__controls_mass (hydraulics_flight_control_mass_coefficient controls_mass
    landinggear_total_mass hydraulics_gear_mass_coefficient : ℝ)  :
    HasDerivAt (fun t => out_hydraulics_mass hydraulics_flight_control_mass_coefficient t landinggear_total_mass hydraulics_gear_mass_coefficient) (J_hydraulics_mass__controls_mass hydraulics_flight_control_mass_coefficient) controls_mass := by
  simp only [out_hydraulics_mass, J_hydraulics_mass__controls_mass]
  (apply hasDerivAt_of_eq; on_goal 1 => (repeat' comp_step))
  all_goals try comp_side
  all_goals try simp (disch := first | assumption | positivity) only [mul_rpow, div_rpow]
  all_goals try simp only [mul_zero, zero_mul, add_zero, zero_add, sub_zero, zero_sub, mul_one, one_mul]
  all_goals try push_cast
  all_goals comp_eq

theorem d_hydraulics_mass__landinggear_total_mass (hydraulics_flight_control_mass_coefficient
    controls_mass landinggear_total_mass hydraulics_gear_mass_coefficient : ℝ)  :
    HasDerivAt (fun t => out_hydraulics_mass hydraulics_flight_control_mass_coefficient controls_mass t hydraulics_gear_mass_coefficient) (J_hydraulics_mass__landinggear_total_mass hydraulics_gear_mass_coefficient) landinggear_total_mass := by
  simp only [out_hydraulics_mass, J_hydraulics_mass__landinggear_total_mass]
  (apply hasDerivAt_of_eq; on_goal 1 => (repeat' comp_step))
  all_goals try comp_side
  all_goals try simp (disch := first | assumption | positivity) only [mul_rpow, div_rpow]
  all_goals try simp only [mul_zero, zero_mul, add_zero, zero_add, sub_zero, zero_sub, mul_one, one_mul]
  all_goals try push_cast
  all_goals comp_eq

theorem d_hydraulics_mass__hydraulics_gear_mass_coefficient
    (hydraulics_flight_control_mass_coefficient controls_mass landinggear_total_mass
    hydraulics_gear_mass_coefficient : ℝ)  :
    HasDerivAt (fun t => out_hydraulics_mass hydraulics_flight_control_mass_coefficient controls_mass landinggear_total_mass t) (J_hydraulics_mass__hydraulics_gear_mass_coefficient landinggear_total_mass) hydraulics_gear_mass_coefficient := by
  simp only [out_hydraulics_mass, J_hydraulics_mass__hydraulics_gear_mass_coefficient]
  (apply hasDerivAt_of_eq; on_goal 1 => (repeat' comp_step))
  all_goals try comp_side
  all_goals try simp (disch := first | assumption | positivity) only [mul_rpow, div_rpow]
  all_goals try simp only [mul_zero, zero_mul, add_zero, zero_add, sub_zero, zero_sub, mul_one, one_mul]
  all_goals try push_cast
  all_goals comp_eq

/-- Every partial derivative set by `HydraulicsMass` is the derivative of its output. -/
theorem partials (hydraulics_flight_control_mass_coefficient controls_mass landinggear_total_mass
    hydraulics_gear_mass_coefficient : ℝ) :
    HasDerivAt (fun t => out_hydraulics_mass t controls_mass landinggear_total_mass
      hydraulics_gear_mass_coefficient)
      (J_hydraulics_mass__hydraulics_flight_control_mass_coefficient controls_mass)
      hydraulics_flight_control_mass_coefficient ∧
    HasDerivAt (fun t => out_hydraulics_mass hydraulics_flight_control_mass_coefficient t
      landinggear_total_mass hydraulics_gear_mass_coefficient) (J_hydraulics_mass__controls_mass
      hydraulics_flight_control_mass_coefficient) controls_mass ∧
    HasDerivAt (fun t => out_hydraulics_mass hydraulics_flight_control_mass_coefficient controls_mass
      t hydraulics_gear_mass_coefficient) (J_hydraulics_mass__landinggear_total_mass
      hydraulics_gear_mass_coefficient) landinggear_total_mass ∧
    HasDerivAt (fun t => out_hydraulics_mass hydraulics_flight_control_mass_coefficient controls_mass
      landinggear_total_mass t) (J_hydraulics_mass__hydraulics_gear_mass_coefficient
      landinggear_total_mass) hydraulics_gear_mass_coefficient :=
  ⟨d_hydraulics_mass__hydraulics_flight_control_mass_coefficient _ _ _ _,
    d_hydraulics_mass__controls_mass _ _ _ _, d_hydraulics_mass__landinggear_total_mass _ _ _ _,
    d_hydraulics_mass__hydraulics_gear_mass_coefficient _ _ _ _⟩

end Verif.Comp.MassGaspBasedHydraulics.HydraulicsMass_no_landinggearfixedgear

