import Verif.Lemmas.CompDeriv

/-! # Partial derivatives of the components of `aviary/mission/two_dof/ode/constraints/flight_constraints.py`

One node of a vector component is modelled over the real numbers.  Each option that selects a
branch is fixed, one namespace per choice.  `out_x` is the output `x`, `J_x__y` the entry that
`compute_partials` (or `declare_partials` with `val`) assigns, `d_x__y` the proof that the entry is
the derivative.  Inputs an output does not take as argument have no influence on it. -/

set_option linter.all false

namespace Verif.Comp.MissionTwoDofOdeConstraintsFlightConstraints.ClimbAtTopOfClimb
open Real

/-- Output `roc` of `ClimbAtTopOfClimb.compute`, aviary/mission/two_dof/ode/constraints/flight_constraints.py:198 -/
noncomputable def out_roc (mission_velocity mission_flight_path_angle : ℝ) : ℝ :=
  mission_velocity * (sin mission_flight_path_angle)

/-- Partial of `roc` with respect to `mission_velocity` as set by `ClimbAtTopOfClimb`, aviary/mission/two_dof/ode/constraints/flight_constraints.py:203 -/
noncomputable def J_roc__mission_velocity (mission_flight_path_angle : ℝ) : ℝ :=
  sin mission_flight_path_angle

/-- Partial of `roc` with respect to `mission_flight_path_angle` as set by `ClimbAtTopOfClimb`, aviary/mission/two_dof/ode/constraints/flight_constraints.py:204 -/
noncomputable def J_roc__mission_flight_path_angle (mission_velocity mission_flight_path_angle : ℝ) : ℝ :=
  mission_velocity * (cos mission_flight_path_angle)

theorem d_roc__mission_velocity (mission_velocity mission_flight_path_angle : ℝ)  :
    HasDerivAt (fun t => out_roc t mission_flight_path_angle) (J_roc__mission_velocity mission_flight_path_angle) mission_velocity := by
  simp only [out_roc, J_roc__mission_velocity]
  (apply hasDerivAt_of_eq; on_goal 1 => (repeat' comp_step))
  all_goals try comp_side
  all_goals try simp only [mul_zero, zero_mul, add_zero, zero_add, sub_zero, zero_sub, mul_one, one_mul]
  all_goals try push_cast
  all_goals comp_eq

theorem d_roc__mission_flight_path_angle (mission_velocity mission_flight_path_angle : ℝ)  :
    HasDerivAt (fun t => out_roc mission_velocity t) (J_roc__mission_flight_path_angle mission_velocity mission_flight_path_angle) mission_flight_path_angle := by
  simp only [out_roc, J_roc__mission_flight_path_angle]
  (apply hasDerivAt_of_eq; on_goal 1 => (repeat' comp_step))
  all_goals try comp_side
  all_goals try simp only [mul_zero, zero_mul, add_zero, zero_add, sub_zero, zero_sub, mul_one, one_mul]
  all_goals try push_cast
  all_goals comp_eq

/-- Every partial derivative set by `ClimbAtTopOfClimb` is the derivative of its output. -/
theorem partials (mission_velocity mission_flight_path_angle : ℝ) :
    HasDerivAt (fun t => out_roc t mission_flight_path_angle) (J_roc__mission_velocity
      mission_flight_path_angle) mission_velocity ∧
    HasDerivAt (fun t => out_roc mission_velocity t) (J_roc__mission_flight_path_angle
      mission_velocity mission_flight_path_angle) mission_flight_path_angle :=
  ⟨d_roc__mission_velocity _ _, d_roc__mission_flight_path_angle _ _⟩

end Verif.Comp.MissionTwoDofOdeConstraintsFlightConstraints.ClimbAtTopOfClimb

namespace Verif.Comp.MissionTwoDofOdeConstraintsFlightConstraints.FlightConstraints
open Real

/-- aviary/mission/two_dof/ode/constraints/flight_constraints.py:137 -/
noncomputable def v_stall (vehicle_mass wing_area atmosphere_density cl_max : ℝ) : ℝ :=
  ((2 * vehicle_mass) / ((wing_area * atmosphere_density) * cl_max)) ^ ((1 / 2) : ℝ)

/-- aviary/mission/two_dof/ode/constraints/flight_constraints.py:138 -/
noncomputable def tas_min (vehicle_mass wing_area atmosphere_density cl_max : ℝ) : ℝ :=
  (11 / 10) * (v_stall vehicle_mass wing_area atmosphere_density cl_max)

/-- Output `tas_min` of `FlightConstraints.compute`, aviary/mission/two_dof/ode/constraints/flight_constraints.py:141 -/
noncomputable def out_tas_min (vehicle_mass wing_area atmosphere_density cl_max : ℝ) : ℝ :=
  tas_min vehicle_mass wing_area atmosphere_density cl_max

/-- Output `theta` of `FlightConstraints.compute`, aviary/mission/two_dof/ode/constraints/flight_constraints.py:143 -/
noncomputable def out_theta (mission_flight_path_angle wing_incidence vehicle_angle_of_attack : ℝ) : ℝ :=
  (mission_flight_path_angle - wing_incidence) + vehicle_angle_of_attack

/-- Output `tas_violation` of `FlightConstraints.compute`, aviary/mission/two_dof/ode/constraints/flight_constraints.py:144 -/
noncomputable def out_tas_violation (vehicle_mass wing_area atmosphere_density cl_max mission_velocity : ℝ) : ℝ :=
  (tas_min vehicle_mass wing_area atmosphere_density cl_max) - mission_velocity

/-- Partial of `theta` with respect to `mission_flight_path_angle` as set by `FlightConstraints`, aviary/mission/two_dof/ode/constraints/flight_constraints.py:152 -/
noncomputable def J_theta__mission_flight_path_angle : ℝ := 1

/-- Partial of `theta` with respect to `vehicle_angle_of_attack` as set by `FlightConstraints`, aviary/mission/two_dof/ode/constraints/flight_constraints.py:153 -/
noncomputable def J_theta__vehicle_angle_of_attack : ℝ := 1

/-- Partial of `theta` with respect to `wing_incidence` as set by `FlightConstraints`, aviary/mission/two_dof/ode/constraints/flight_constraints.py:154 -/
noncomputable def J_theta__wing_incidence : ℝ := -1

/-- Partial of `tas_violation` with respect to `vehicle_mass` as set by `FlightConstraints`, aviary/mission/two_dof/ode/constraints/flight_constraints.py:156 -/
noncomputable def J_tas_violation__vehicle_mass (vehicle_mass wing_area atmosphere_density cl_max : ℝ) : ℝ :=
  ((11 / 20) * ((2 / ((wing_area * atmosphere_density) * cl_max)) ^ ((1 / 2) : ℝ))) *
    (vehicle_mass ^ ((-(1 / 2)) : ℝ))

/-- Partial of `tas_violation` with respect to `atmosphere_density` as set by `FlightConstraints`, aviary/mission/two_dof/ode/constraints/flight_constraints.py:163 -/
noncomputable def J_tas_violation__atmosphere_density (vehicle_mass wing_area atmosphere_density cl_max : ℝ) : ℝ :=
  (((11 / 10) * (((2 * vehicle_mass) / (wing_area * cl_max)) ^ ((1 / 2) : ℝ))) * (-(1 / 2))) *
    (atmosphere_density ^ ((-(3 / 2)) : ℝ))

/-- Partial of `tas_violation` with respect to `cl_max` as set by `FlightConstraints`, aviary/mission/two_dof/ode/constraints/flight_constraints.py:166 -/
noncomputable def J_tas_violation__cl_max (vehicle_mass wing_area atmosphere_density cl_max : ℝ) : ℝ :=
  (((11 / 10) * (((2 * vehicle_mass) / (wing_area * atmosphere_density)) ^ ((1 / 2) : ℝ))) *
    (-(1 / 2))) * (cl_max ^ ((-(3 / 2)) : ℝ))

/-- Partial of `tas_violation` with respect to `mission_velocity` as set by `FlightConstraints`, aviary/mission/two_dof/ode/constraints/flight_constraints.py:169 -/
noncomputable def J_tas_violation__mission_velocity : ℝ := -1

/-- Partial of `tas_violation` with respect to `wing_area` as set by `FlightConstraints`, aviary/mission/two_dof/ode/constraints/flight_constraints.py:170 -/
noncomputable def J_tas_violation__wing_area (vehicle_mass wing_area atmosphere_density cl_max : ℝ) : ℝ :=
  (((11 / 10) * (((2 * vehicle_mass) / (atmosphere_density * cl_max)) ^ ((1 / 2) : ℝ))) * (-(1 /
    2))) * (wing_area ^ ((-(3 / 2)) : ℝ))

/-- Partial of `tas_min` with respect to `vehicle_mass` as set by `FlightConstraints`, aviary/mission/two_dof/ode/constraints/flight_constraints.py:174 -/
noncomputable def J_tas_min__vehicle_mass (vehicle_mass wing_area atmosphere_density cl_max : ℝ) : ℝ :=
  (11 / 10) * (((1 / 2) * ((2 / ((wing_area * atmosphere_density) * cl_max)) ^ ((1 / 2) : ℝ))) *
    (vehicle_mass ^ ((-(1 / 2)) : ℝ)))

/-- Partial of `tas_min` with respect to `atmosphere_density` as set by `FlightConstraints`, aviary/mission/two_dof/ode/constraints/flight_constraints.py:177 -/
noncomputable def J_tas_min__atmosphere_density (vehicle_mass wing_area atmosphere_density cl_max : ℝ) : ℝ :=
  (11 / 10) * (((((2 * vehicle_mass) / (wing_area * cl_max)) ^ ((1 / 2) : ℝ)) * (-(1 / 2))) *
    (atmosphere_density ^ ((-(3 / 2)) : ℝ)))

/-- Partial of `tas_min` with respect to `cl_max` as set by `FlightConstraints`, aviary/mission/two_dof/ode/constraints/flight_constraints.py:180 -/
noncomputable def J_tas_min__cl_max (vehicle_mass wing_area atmosphere_density cl_max : ℝ) : ℝ :=
  (11 / 10) * (((((2 * vehicle_mass) / (wing_area * atmosphere_density)) ^ ((1 / 2) : ℝ)) * (-(1
    / 2))) * (cl_max ^ ((-(3 / 2)) : ℝ)))

/-- Partial of `tas_min` with respect to `wing_area` as set by `FlightConstraints`, aviary/mission/two_dof/ode/constraints/flight_constraints.py:183 -/
noncomputable def J_tas_min__wing_area (vehicle_mass wing_area atmosphere_density cl_max : ℝ) : ℝ :=
  (11 / 10) * (((((2 * vehicle_mass) / (atmosphere_density * cl_max)) ^ ((1 / 2) : ℝ)) * (-(1 /
    2))) * (wing_area ^ ((-(3 / 2)) : ℝ)))

theorem d_tas_min__vehicle_mass (vehicle_mass wing_area atmosphere_density cl_max : ℝ) (h0 : 0 <
    wing_area) (h1 : 0 < atmosphere_density) (h2 : 0 < cl_max) (h3 : 0 < vehicle_mass) :
    HasDerivAt (fun t => out_tas_min t wing_area atmosphere_density cl_max) (J_tas_min__vehicle_mass vehicle_mass wing_area atmosphere_density cl_max) vehicle_mass := by
  have e0 : ∀ x : ℝ, 0 < x → x ^ ((-(1 / 2)) : ℝ) = x ^ ((1 / 2) : ℝ) / x ^ 1 := fun x hx => rpow_down hx 1 (by norm_num)
  simp only [out_tas_min, J_tas_min__vehicle_mass, tas_min, v_stall]
  (apply hasDerivAt_of_eq; on_goal 1 => (repeat' comp_step))
  all_goals try comp_side
  all_goals try simp (disch := first | assumption | positivity) only [mul_rpow, div_rpow, e0, div_mul_eq_div_div, div_half, inv_half]
  all_goals try simp only [mul_zero, zero_mul, add_zero, zero_add, sub_zero, zero_sub, mul_one, one_mul]
  all_goals try push_cast
  all_goals comp_eq

theorem d_tas_min__wing_area (vehicle_mass wing_area atmosphere_density cl_max : ℝ) (h0 : 0 <
    wing_area) (h1 : 0 < atmosphere_density) (h2 : 0 < cl_max) (h3 : 0 < vehicle_mass) :
    HasDerivAt (fun t => out_tas_min vehicle_mass t atmosphere_density cl_max) (J_tas_min__wing_area vehicle_mass wing_area atmosphere_density cl_max) wing_area := by
  have e0 : ∀ x : ℝ, 0 < x → x ^ ((-(3 / 2)) : ℝ) = x ^ ((1 / 2) : ℝ) / x ^ 2 := fun x hx => rpow_down hx 2 (by norm_num)
  simp only [out_tas_min, J_tas_min__wing_area, tas_min, v_stall]
  (apply hasDerivAt_of_eq; on_goal 1 => (repeat' comp_step))
  all_goals try comp_side
  all_goals try simp (disch := first | assumption | positivity) only [mul_rpow, div_rpow, e0, div_mul_eq_div_div, div_half, inv_half]
  all_goals try simp only [mul_zero, zero_mul, add_zero, zero_add, sub_zero, zero_sub, mul_one, one_mul]
  all_goals try push_cast
  all_goals comp_eq

theorem d_tas_min__atmosphere_density (vehicle_mass wing_area atmosphere_density cl_max : ℝ) (h0 :
    0 < wing_area) (h1 : 0 < atmosphere_density) (h2 : 0 < cl_max) (h3 : 0 < vehicle_mass) :
    HasDerivAt (fun t => out_tas_min vehicle_mass wing_area t cl_max) (J_tas_min__atmosphere_density vehicle_mass wing_area atmosphere_density cl_max) atmosphere_density := by
  have e0 : ∀ x : ℝ, 0 < x → x ^ ((-(3 / 2)) : ℝ) = x ^ ((1 / 2) : ℝ) / x ^ 2 := fun x hx => rpow_down hx 2 (by norm_num)
  simp only [out_tas_min, J_tas_min__atmosphere_density, tas_min, v_stall]
  (apply hasDerivAt_of_eq; on_goal 1 => (repeat' comp_step))
  all_goals try comp_side
  all_goals try simp (disch := first | assumption | positivity) only [mul_rpow, div_rpow, e0, div_mul_eq_div_div, div_half, inv_half]
  all_goals try simp only [mul_zero, zero_mul, add_zero, zero_add, sub_zero, zero_sub, mul_one, one_mul]
  all_goals try push_cast
  all_goals comp_eq

theorem d_tas_min__cl_max (vehicle_mass wing_area atmosphere_density cl_max : ℝ) (h0 : 0 <
    wing_area) (h1 : 0 < atmosphere_density) (h2 : 0 < cl_max) (h3 : 0 < vehicle_mass) :
    HasDerivAt (fun t => out_tas_min vehicle_mass wing_area atmosphere_density t) (J_tas_min__cl_max vehicle_mass wing_area atmosphere_density cl_max) cl_max := by
  have e0 : ∀ x : ℝ, 0 < x → x ^ ((-(3 / 2)) : ℝ) = x ^ ((1 / 2) : ℝ) / x ^ 2 := fun x hx => rpow_down hx 2 (by norm_num)
  simp only [out_tas_min, J_tas_min__cl_max, tas_min, v_stall]
  (apply hasDerivAt_of_eq; on_goal 1 => (repeat' comp_step))
  all_goals try comp_side
  all_goals try simp (disch := first | assumption | positivity) only [mul_rpow, div_rpow, e0, div_mul_eq_div_div, div_half, inv_half]
  all_goals try simp only [mul_zero, zero_mul, add_zero, zero_add, sub_zero, zero_sub, mul_one, one_mul]
  all_goals try push_cast
  all_goals comp_eq

theorem d_theta__mission_flight_path_angle (mission_flight_path_angle wing_incidence
    vehicle_angle_of_attack : ℝ)  :
    HasDerivAt (fun t => out_theta t wing_incidence vehicle_angle_of_attack) (J_theta__mission_flight_path_angle) mission_flight_path_angle := by
  simp only [out_theta, J_theta__mission_flight_path_angle]
  (apply hasDerivAt_of_eq; on_goal 1 => (repeat' comp_step))
  all_goals try comp_side
  all_goals try simp only [mul_zero, zero_mul, add_zero, zero_add, sub_zero, zero_sub, mul_one, one_mul]
  all_goals try push_cast
  all_goals comp_eq

theorem d_theta__wing_incidence (mission_flight_path_angle wing_incidence vehicle_angle_of_attack
    : ℝ)  :
    HasDerivAt (fun t => out_theta mission_flight_path_angle t vehicle_angle_of_attack) (J_theta__wing_incidence) wing_incidence := by
  simp only [out_theta, J_theta__wing_incidence]
  (apply hasDerivAt_of_eq; on_goal 1 => (repeat' comp_step))
  all_goals try comp_side
  all_goals try simp only [mul_zero, zero_mul, add_zero, zero_add, sub_zero, zero_sub, mul_one, one_mul]
  all_goals try push_cast
  all_goals comp_eq

theorem d_theta__vehicle_angle_of_attack (mission_flight_path_angle wing_incidence
    vehicle_angle_of_attack : ℝ)  :
    HasDerivAt (fun t => out_theta mission_flight_path_angle wing_incidence t) (J_theta__vehicle_angle_of_attack) vehicle_angle_of_attack := by
  simp only [out_theta, J_theta__vehicle_angle_of_attack]
  (apply hasDerivAt_of_eq; on_goal 1 => (repeat' comp_step))
  all_goals try comp_side
  all_goals try simp only [mul_zero, zero_mul, add_zero, zero_add, sub_zero, zero_sub, mul_one, one_mul]
  all_goals try push_cast
  all_goals comp_eq

theorem d_tas_violation__vehicle_mass (vehicle_mass wing_area atmosphere_density cl_max
    mission_velocity : ℝ) (h0 : 0 < wing_area) (h1 : 0 < atmosphere_density) (h2 : 0 < cl_max) (h3
    : 0 < vehicle_mass) :
    HasDerivAt (fun t => out_tas_violation t wing_area atmosphere_density cl_max mission_velocity) (J_tas_violation__vehicle_mass vehicle_mass wing_area atmosphere_density cl_max) vehicle_mass := by
  have e0 : ∀ x : ℝ, 0 < x → x ^ ((-(1 / 2)) : ℝ) = x ^ ((1 / 2) : ℝ) / x ^ 1 := fun x hx => rpow_down hx 1 (by norm_num)
  simp only [out_tas_violation, J_tas_violation__vehicle_mass, tas_min, v_stall]
  (apply hasDerivAt_of_eq; on_goal 1 => (repeat' comp_step))
  all_goals try comp_side
  all_goals try simp (disch := first | assumption | positivity) only [mul_rpow, div_rpow, e0, div_mul_eq_div_div, div_half, inv_half]
  all_goals try simp only [mul_zero, zero_mul, add_zero, zero_add, sub_zero, zero_sub, mul_one, one_mul]
  all_goals try push_cast
  all_goals comp_eq

theorem d_tas_violation__wing_area (vehicle_mass wing_area atmosphere_density cl_max
    mission_velocity : ℝ) (h0 : 0 < wing_area) (h1 : 0 < atmosphere_density) (h2 : 0 < cl_max) (h3
    : 0 < vehicle_mass) :
    HasDerivAt (fun t => out_tas_violation vehicle_mass t atmosphere_density cl_max mission_velocity) (J_tas_violation__wing_area vehicle_mass wing_area atmosphere_density cl_max) wing_area := by
  have e0 : ∀ x : ℝ, 0 < x → x ^ ((-(3 / 2)) : ℝ) = x ^ ((1 / 2) : ℝ) / x ^ 2 := fun x hx => rpow_down hx 2 (by norm_num)
  simp only [out_tas_violation, J_tas_violation__wing_area, tas_min, v_stall]
  (apply hasDerivAt_of_eq; on_goal 1 => (repeat' comp_step))
  all_goals try comp_side
  all_goals try simp (disch := first | assumption | positivity) only [mul_rpow, div_rpow, e0, div_mul_eq_div_div, div_half, inv_half]
  all_goals try simp only [mul_zero, zero_mul, add_zero, zero_add, sub_zero, zero_sub, mul_one, one_mul]
  all_goals try push_cast
  all_goals comp_eq

theorem d_tas_violation__atmosphere_density (vehicle_mass wing_area atmosphere_density cl_max
    mission_velocity : ℝ) (h0 : 0 < wing_area) (h1 : 0 < atmosphere_density) (h2 : 0 < cl_max) (h3
    : 0 < vehicle_mass) :
    HasDerivAt (fun t => out_tas_violation vehicle_mass wing_area t cl_max mission_velocity) (J_tas_violation__atmosphere_density vehicle_mass wing_area atmosphere_density cl_max) atmosphere_density := by
  have e0 : ∀ x : ℝ, 0 < x → x ^ ((-(3 / 2)) : ℝ) = x ^ ((1 / 2) : ℝ) / x ^ 2 := fun x hx => rpow_down hx 2 (by norm_num)
  simp only [out_tas_violation, J_tas_violation__atmosphere_density, tas_min, v_stall]
  (apply hasDerivAt_of_eq; on_goal 1 => (repeat' comp_step))
  all_goals try comp_side
  all_goals try simp (disch := first | assumption | positivity) only [mul_rpow, div_rpow, e0, div_mul_eq_div_div, div_half, inv_half]
  all_goals try simp only [mul_zero, zero_mul, add_zero, zero_add, sub_zero, zero_sub, mul_one, one_mul]
  all_goals try push_cast
  all_goals comp_eq

theorem d_tas_violation__cl_max (vehicle_mass wing_area atmosphere_density cl_max mission_velocity
    : ℝ) (h0 : 0 < wing_area) (h1 : 0 < atmosphere_density) (h2 : 0 < cl_max) (h3 : 0 <
    vehicle_mass) :
    HasDerivAt (fun t => out_tas_violation vehicle_mass wing_area atmosphere_density t mission_velocity) (J_tas_violation__cl_max vehicle_mass wing_area atmosphere_density cl_max) cl_max := by
  have e0 : ∀ x : ℝ, 0 < x → x ^ ((-(3 / 2)) : ℝ) = x ^ ((1 / 2) : ℝ) / x ^ 2 := fun x hx => rpow_down hx 2 (by norm_num)
  simp only [out_tas_violation, J_tas_violation__cl_max, tas_min, v_stall]
  (apply hasDerivAt_of_eq; on_goal 1 => (repeat' comp_step))
  all_goals try comp_side
  all_goals try simp (disch := first | assumption | positivity) only [mul_rpow, div_rpow, e0, div_mul_eq_div_div, div_half, inv_half]
  all_goals try simp only [mul_zero, zero_mul, add_zero, zero_add, sub_zero, zero_sub, mul_one, one_mul]
  all_goals try push_cast
  all_goals comp_eq

theorem d_tas_violation__mission_velocity (vehicle_mass wing_area atmosphere_density cl_max
    mission_velocity : ℝ) (h0 : 0 < wing_area) (h1 : 0 < atmosphere_density) (h2 : 0 < cl_max) (h3
    : 0 < vehicle_mass) :
    HasDerivAt (fun t => out_tas_violation vehicle_mass wing_area atmosphere_density cl_max t) (J_tas_violation__mission_velocity) mission_velocity := by
  simp only [out_tas_violation, J_tas_violation__mission_velocity, tas_min, v_stall]
  (apply hasDerivAt_of_eq; on_goal 1 => (repeat' comp_step))
  all_goals try comp_side
  all_goals try simp (disch := first | assumption | positivity) only [div_mul_eq_div_div, div_half, inv_half]
  all_goals try simp only [mul_zero, zero_mul, add_zero, zero_add, sub_zero, zero_sub, mul_one, one_mul]
  all_goals try push_cast
  all_goals comp_eq

/-- Every partial derivative set by `FlightConstraints` is the derivative of its output. -/
theorem partials (vehicle_mass wing_area atmosphere_density cl_max mission_flight_path_angle
    wing_incidence vehicle_angle_of_attack mission_velocity : ℝ) (h0 : 0 < wing_area) (h1 : 0 <
    atmosphere_density) (h2 : 0 < cl_max) (h3 : 0 < vehicle_mass) :
    HasDerivAt (fun t => out_tas_min t wing_area atmosphere_density cl_max) (J_tas_min__vehicle_mass
      vehicle_mass wing_area atmosphere_density cl_max) vehicle_mass ∧
    HasDerivAt (fun t => out_tas_min vehicle_mass t atmosphere_density cl_max) (J_tas_min__wing_area
      vehicle_mass wing_area atmosphere_density cl_max) wing_area ∧
    HasDerivAt (fun t => out_tas_min vehicle_mass wing_area t cl_max) (J_tas_min__atmosphere_density
      vehicle_mass wing_area atmosphere_density cl_max) atmosphere_density ∧
    HasDerivAt (fun t => out_tas_min vehicle_mass wing_area atmosphere_density t) (J_tas_min__cl_max
      vehicle_mass wing_area atmosphere_density cl_max) cl_max ∧
    HasDerivAt (fun t => out_theta t wing_incidence vehicle_angle_of_attack)
      (J_theta__mission_flight_path_angle) mission_flight_path_angle ∧
    HasDerivAt (fun t => out_theta mission_flight_path_angle t vehicle_angle_of_attack)
      (J_theta__wing_incidence) wing_incidence ∧
    HasDerivAt (fun t => out_theta mission_flight_path_angle wing_incidence t)
      (J_theta__vehicle_angle_of_attack) vehicle_angle_of_attack ∧
    HasDerivAt (fun t => out_tas_violation t wing_area atmosphere_density cl_max mission_velocity)
      (J_tas_violation__vehicle_mass vehicle_mass wing_area atmosphere_density cl_max)
      vehicle_mass ∧
    HasDerivAt (fun t => out_tas_violation vehicle_mass t atmosphere_density cl_max mission_velocity)
      (J_tas_violation__wing_area vehicle_mass wing_area atmosphere_density cl_max) wing_area ∧
    HasDerivAt (fun t => out_tas_violation vehicle_mass wing_area t cl_max mission_velocity)
      (J_tas_violation__atmosphere_density vehicle_mass wing_area atmosphere_density cl_max)
      atmosphere_density ∧
    HasDerivAt (fun t => out_tas_violation vehicle_mass wing_area atmosphere_density t
      mission_velocity) (J_tas_violation__cl_max vehicle_mass wing_area atmosphere_density cl_max)
      cl_max ∧
    HasDerivAt (fun t => out_tas_violation vehicle_mass wing_area atmosphere_density cl_max t)
      (J_tas_violation__mission_velocity) mission_velocity :=
  ⟨d_tas_min__vehicle_mass _ _ _ _ h0 h1 h2 h3, d_tas_min__wing_area _ _ _ _ h0 h1 h2 h3,
    d_tas_min__atmosphere_density _ _ _ _ h0 h1 h2 h3, d_tas_min__cl_max _ _ _ _ h0 h1 h2 h3,
    d_theta__mission_flight_path_angle _ _ _, d_theta__wing_incidence _ _ _,
    d_theta__vehicle_angle_of_attack _ _ _, d_tas_violation__vehicle_mass _ _ _ _ _ h0 h1 h2 h3,
    d_tas_violation__wing_area _ _ _ _ _ h0 h1 h2 h3, d_tas_violation__atmosphere_density _ _ _ _
    _ h0 h1 h2 h3, d_tas_violation__cl_max _ _ _ _ _ h0 h1 h2 h3,
    d_tas_violation__mission_velocity _ _ _ _ _ h0 h1 h2 h3⟩

example : ∃ vehicle_mass wing_area atmosphere_density cl_max mission_flight_path_angle
      wing_incidence vehicle_angle_of_attack mission_velocity : ℝ,
      0 < wing_area ∧
      0 < atmosphere_density ∧
      0 < cl_max ∧
      0 < vehicle_mass :=
  ⟨1, 1, 1, 1, 0, 0, 0, 0, by comp_example, by comp_example, by comp_example, by comp_example⟩

end Verif.Comp.MissionTwoDofOdeConstraintsFlightConstraints.FlightConstraints

