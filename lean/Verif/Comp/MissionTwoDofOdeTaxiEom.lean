import Verif.Lemmas.CompDeriv

/-! # Partial derivatives of the components of `aviary/mission/two_dof/ode/taxi_eom.py`

One node of a vector component is modelled over the real numbers.  Each option that selects a
branch is fixed, one namespace per choice.  `out_x` is the output `x`, `J_x__y` the entry that
`compute_partials` (or `declare_partials` with `val`) assigns, `d_x__y` the proof that the entry is
the derivative.  Inputs an output does not take as argument have no influence on it. -/

set_option linter.all false

namespace Verif.Comp.MissionTwoDofOdeTaxiEom.TaxiFuelComponent
open Real

/-- Output `taxi_fuel_consumed` of `TaxiFuelComponent.compute`, aviary/mission/two_dof/ode/taxi_eom.py:48 -/
noncomputable def out_taxi_fuel_consumed (taxi_duration vehicle_propulsion_fuel_mass_flow_rate_negative_total : ℝ) : ℝ :=
  (-vehicle_propulsion_fuel_mass_flow_rate_negative_total) * taxi_duration

/-- Output `vehicle_mass` of `TaxiFuelComponent.compute`, aviary/mission/two_dof/ode/taxi_eom.py:49 -/
noncomputable def out_vehicle_mass (taxi_duration vehicle_propulsion_fuel_mass_flow_rate_negative_total gross_mass : ℝ) : ℝ :=
  gross_mass - ((-vehicle_propulsion_fuel_mass_flow_rate_negative_total) * taxi_duration)

/-- Partial of `vehicle_mass` with respect to `gross_mass` as set by `TaxiFuelComponent`, aviary/mission/two_dof/ode/taxi_eom.py:43 -/
noncomputable def J_vehicle_mass__gross_mass : ℝ := 1

/-- Partial of `taxi_fuel_consumed` with respect to `vehicle_propulsion_fuel_mass_flow_rate_negative_total` as set by `TaxiFuelComponent`, aviary/mission/two_dof/ode/taxi_eom.py:54 -/
noncomputable def J_taxi_fuel_consumed__vehicle_propulsion_fuel_mass_flow_rate_negative_total (taxi_duration : ℝ) : ℝ :=
  -taxi_duration

/-- Partial of `vehicle_mass` with respect to `vehicle_propulsion_fuel_mass_flow_rate_negative_total` as set by `TaxiFuelComponent`, aviary/mission/two_dof/ode/taxi_eom.py:59 -/
noncomputable def J_vehicle_mass__vehicle_propulsion_fuel_mass_flow_rate_negative_total (taxi_duration : ℝ) : ℝ :=
  taxi_duration

theorem d_taxi_fuel_consumed__vehicle_propulsion_fuel_mass_flow_rate_negative_total (taxi_duration
    vehicle_propulsion_fuel_mass_flow_rate_negative_total : ℝ)  :
    HasDerivAt (fun t => out_taxi_fuel_consumed taxi_duration t) (J_taxi_fuel_consumed__vehicle_propulsion_fuel_mass_flow_rate_negative_total taxi_duration) vehicle_propulsion_fuel_mass_flow_rate_negative_total := by
  simp only [out_taxi_fuel_consumed, J_taxi_fuel_consumed__vehicle_propulsion_fuel_mass_flow_rate_negative_total]
  (apply hasDerivAt_of_eq; on_goal 1 => (repeat' comp_step))
  all_goals try comp_side
  all_goals try simp only [mul_zero, zero_mul, add_zero, zero_add, sub_zero, zero_sub, mul_one, one_mul]
  all_goals try push_cast
  all_goals comp_eq

theorem d_vehicle_mass__vehicle_propulsion_fuel_mass_flow_rate_negative_total (taxi_duration
    vehicle_propulsion_fuel_mass_flow_rate_negative_total gross_mass : ℝ)  :
    HasDerivAt (fun t => out_vehicle_mass taxi_duration t gross_mass) (J_vehicle_mass__vehicle_propulsion_fuel_mass_flow_rate_negative_total taxi_duration) vehicle_propulsion_fuel_mass_flow_rate_negative_total := by
  simp only [out_vehicle_mass, J_vehicle_mass__vehicle_propulsion_fuel_mass_flow_rate_negative_total]
  (apply hasDerivAt_of_eq; on_goal 1 => (repeat' comp_step))
  all_goals try comp_side
  all_goals try simp only [mul_zero, zero_mul, add_zero, zero_add, sub_zero, zero_sub, mul_one, one_mul]
  all_goals try push_cast
  all_goals comp_eq

theorem d_vehicle_mass__gross_mass (taxi_duration
    vehicle_propulsion_fuel_mass_flow_rate_negative_total gross_mass : ℝ)  :
    HasDerivAt (fun t => out_vehicle_mass taxi_duration vehicle_propulsion_fuel_mass_flow_rate_negative_total t) (J_vehicle_mass__gross_mass) gross_mass := by
  simp only [out_vehicle_mass, J_vehicle_mass__gross_mass]
  (apply hasDerivAt_of_eq; on_goal 1 => (repeat' comp_step))
  all_goals try comp_side
  all_goals try simp only [mul_zero, zero_mul, add_zero, zero_add, sub_zero, zero_sub, mul_one, one_mul]
  all_goals try push_cast
  all_goals comp_eq

/-- Every partial derivative set by `TaxiFuelComponent` is the derivative of its output. -/
theorem partials (taxi_duration vehicle_propulsion_fuel_mass_flow_rate_negative_total gross_mass :
    ℝ) :
    HasDerivAt (fun t => out_taxi_fuel_consumed taxi_duration t)
      (J_taxi_fuel_consumed__vehicle_propulsion_fuel_mass_flow_rate_negative_total taxi_duration)
      vehicle_propulsion_fuel_mass_flow_rate_negative_total ∧
    HasDerivAt (fun t => out_vehicle_mass taxi_duration t gross_mass)
      (J_vehicle_mass__vehicle_propulsion_fuel_mass_flow_rate_negative_total taxi_duration)
      vehicle_propulsion_fuel_mass_flow_rate_negative_total ∧
    HasDerivAt (fun t => out_vehicle_mass taxi_duration
      vehicle_propulsion_fuel_mass_flow_rate_negative_total t) (J_vehicle_mass__gross_mass)
      gross_mass :=
  ⟨d_taxi_fuel_consumed__vehicle_propulsion_fuel_mass_flow_rate_negative_total _ _,
    d_vehicle_mass__vehicle_propulsion_fuel_mass_flow_rate_negative_total _ _ _,
    d_vehicle_mass__gross_mass _ _ _⟩

end Verif.Comp.MissionTwoDofOdeTaxiEom.TaxiFuelComponent

