import Verif.Lemmas.CompDeriv

/-! # Partial derivatives of the components of `aviary/mission/two_dof/ode/flight_eom.py`

One node of a vector component is modelled over the real numbers.  Each option that selects a
branch is fixed, one namespace per choice.  `out_x` is the output `x`, `J_x__y` the entry that
`compute_partials` (or `declare_partials` with `val`) assigns, `d_x__y` the proof that the entry is
the derivative.  Inputs an output does not take as argument have no influence on it. -/

set_option linter.all false

namespace Verif.Comp.MissionTwoDofOdeFlightEom.EOMRates
open Real

/-- aviary/mission/two_dof/ode/flight_eom.py:120 -/
noncomputable def gamma (vehicle_propulsion_thrust_total vehicle_drag vehicle_mass : ℝ) : ℝ :=
  arcsin ((vehicle_propulsion_thrust_total - vehicle_drag) / vehicle_mass)

/-- aviary/mission/two_dof/ode/flight_eom.py:136 -/
noncomputable def fact (vehicle_propulsion_thrust_total vehicle_drag vehicle_mass : ℝ) : ℝ :=
  (1 - (((vehicle_propulsion_thrust_total - vehicle_drag) / vehicle_mass) ^ 2)) ^ ((-(1 / 2)) :
    ℝ)

/-- aviary/mission/two_dof/ode/flight_eom.py:137 -/
noncomputable def dgamma_dthrust (vehicle_propulsion_thrust_total vehicle_drag vehicle_mass : ℝ) : ℝ :=
  (fact vehicle_propulsion_thrust_total vehicle_drag vehicle_mass) / vehicle_mass

/-- aviary/mission/two_dof/ode/flight_eom.py:138 -/
noncomputable def dgamma_ddrag (vehicle_propulsion_thrust_total vehicle_drag vehicle_mass : ℝ) : ℝ :=
  (-(fact vehicle_propulsion_thrust_total vehicle_drag vehicle_mass)) / vehicle_mass

/-- aviary/mission/two_dof/ode/flight_eom.py:139 -/
noncomputable def dgamma_dweight (vehicle_propulsion_thrust_total vehicle_drag vehicle_mass : ℝ) : ℝ :=
  ((fact vehicle_propulsion_thrust_total vehicle_drag vehicle_mass) * (vehicle_drag -
    vehicle_propulsion_thrust_total)) / (vehicle_mass ^ 2)

/-- Output `mission_altitude_rate` of `EOMRates.compute`, aviary/mission/two_dof/ode/flight_eom.py:122 -/
noncomputable def out_mission_altitude_rate (mission_velocity vehicle_propulsion_thrust_total vehicle_drag vehicle_mass : ℝ) : ℝ :=
  mission_velocity * (sin (gamma vehicle_propulsion_thrust_total vehicle_drag vehicle_mass))

/-- Output `mission_distance_rate` of `EOMRates.compute`, aviary/mission/two_dof/ode/flight_eom.py:123 -/
noncomputable def out_mission_distance_rate (mission_velocity vehicle_propulsion_thrust_total vehicle_drag vehicle_mass : ℝ) : ℝ :=
  mission_velocity * (cos (gamma vehicle_propulsion_thrust_total vehicle_drag vehicle_mass))

/-- Output `required_lift` of `EOMRates.compute`, aviary/mission/two_dof/ode/flight_eom.py:124 -/
noncomputable def out_required_lift (vehicle_propulsion_thrust_total vehicle_drag vehicle_mass vehicle_angle_of_attack : ℝ) : ℝ :=
  (vehicle_mass * (cos (gamma vehicle_propulsion_thrust_total vehicle_drag vehicle_mass))) -
    (vehicle_propulsion_thrust_total * (sin vehicle_angle_of_attack))

/-- Output `mission_flight_path_angle` of `EOMRates.compute`, aviary/mission/two_dof/ode/flight_eom.py:125 -/
noncomputable def out_mission_flight_path_angle (vehicle_propulsion_thrust_total vehicle_drag vehicle_mass : ℝ) : ℝ :=
  gamma vehicle_propulsion_thrust_total vehicle_drag vehicle_mass

/-- Partial of `mission_altitude_rate` with respect to `mission_velocity` as set by `EOMRates`, aviary/mission/two_dof/ode/flight_eom.py:141 -/
noncomputable def J_mission_altitude_rate__mission_velocity (vehicle_propulsion_thrust_total vehicle_drag vehicle_mass : ℝ) : ℝ :=
  sin (gamma vehicle_propulsion_thrust_total vehicle_drag vehicle_mass)

/-- Partial of `mission_altitude_rate` with respect to `vehicle_propulsion_thrust_total` as set by `EOMRates`, aviary/mission/two_dof/ode/flight_eom.py:142 -/
noncomputable def J_mission_altitude_rate__vehicle_propulsion_thrust_total (mission_velocity vehicle_propulsion_thrust_total vehicle_drag vehicle_mass : ℝ) : ℝ :=
  (mission_velocity * (cos (gamma vehicle_propulsion_thrust_total vehicle_drag vehicle_mass))) *
    (dgamma_dthrust vehicle_propulsion_thrust_total vehicle_drag vehicle_mass)

/-- Partial of `mission_altitude_rate` with respect to `vehicle_drag` as set by `EOMRates`, aviary/mission/two_dof/ode/flight_eom.py:145 -/
noncomputable def J_mission_altitude_rate__vehicle_drag (mission_velocity vehicle_propulsion_thrust_total vehicle_drag vehicle_mass : ℝ) : ℝ :=
  (mission_velocity * (cos (gamma vehicle_propulsion_thrust_total vehicle_drag vehicle_mass))) *
    (dgamma_ddrag vehicle_propulsion_thrust_total vehicle_drag vehicle_mass)

/-- Partial of `mission_altitude_rate` with respect to `vehicle_mass` as set by `EOMRates`, aviary/mission/two_dof/ode/flight_eom.py:146 -/
noncomputable def J_mission_altitude_rate__vehicle_mass (mission_velocity vehicle_propulsion_thrust_total vehicle_drag vehicle_mass : ℝ) : ℝ :=
  (mission_velocity * (cos (gamma vehicle_propulsion_thrust_total vehicle_drag vehicle_mass))) *
    (dgamma_dweight vehicle_propulsion_thrust_total vehicle_drag vehicle_mass)

/-- Partial of `mission_distance_rate` with respect to `mission_velocity` as set by `EOMRates`, aviary/mission/two_dof/ode/flight_eom.py:150 -/
noncomputable def J_mission_distance_rate__mission_velocity (vehicle_propulsion_thrust_total vehicle_drag vehicle_mass : ℝ) : ℝ :=
  cos (gamma vehicle_propulsion_thrust_total vehicle_drag vehicle_mass)

/-- Partial of `mission_distance_rate` with respect to `vehicle_propulsion_thrust_total` as set by `EOMRates`, aviary/mission/two_dof/ode/flight_eom.py:151 -/
noncomputable def J_mission_distance_rate__vehicle_propulsion_thrust_total (mission_velocity vehicle_propulsion_thrust_total vehicle_drag vehicle_mass : ℝ) : ℝ :=
  ((-mission_velocity) * (sin (gamma vehicle_propulsion_thrust_total vehicle_drag
    vehicle_mass))) * (dgamma_dthrust vehicle_propulsion_thrust_total vehicle_drag vehicle_mass)

/-- Partial of `mission_distance_rate` with respect to `vehicle_drag` as set by `EOMRates`, aviary/mission/two_dof/ode/flight_eom.py:154 -/
noncomputable def J_mission_distance_rate__vehicle_drag (mission_velocity vehicle_propulsion_thrust_total vehicle_drag vehicle_mass : ℝ) : ℝ :=
  ((-mission_velocity) * (sin (gamma vehicle_propulsion_thrust_total vehicle_drag
    vehicle_mass))) * (dgamma_ddrag vehicle_propulsion_thrust_total vehicle_drag vehicle_mass)

/-- Partial of `mission_distance_rate` with respect to `vehicle_mass` as set by `EOMRates`, aviary/mission/two_dof/ode/flight_eom.py:155 -/
noncomputable def J_mission_distance_rate__vehicle_mass (mission_velocity vehicle_propulsion_thrust_total vehicle_drag vehicle_mass : ℝ) : ℝ :=
  ((-mission_velocity) * (sin (gamma vehicle_propulsion_thrust_total vehicle_drag
    vehicle_mass))) * (dgamma_dweight vehicle_propulsion_thrust_total vehicle_drag vehicle_mass)

/-- Partial of `required_lift` with respect to `vehicle_mass` as set by `EOMRates`, aviary/mission/two_dof/ode/flight_eom.py:159 -/
noncomputable def J_required_lift__vehicle_mass (vehicle_propulsion_thrust_total vehicle_drag vehicle_mass : ℝ) : ℝ :=
  (cos (gamma vehicle_propulsion_thrust_total vehicle_drag vehicle_mass)) - ((vehicle_mass *
    (sin (gamma vehicle_propulsion_thrust_total vehicle_drag vehicle_mass))) * (dgamma_dweight
    vehicle_propulsion_thrust_total vehicle_drag vehicle_mass))

/-- Partial of `required_lift` with respect to `vehicle_propulsion_thrust_total` as set by `EOMRates`, aviary/mission/two_dof/ode/flight_eom.py:162 -/
noncomputable def J_required_lift__vehicle_propulsion_thrust_total (vehicle_propulsion_thrust_total vehicle_drag vehicle_mass vehicle_angle_of_attack : ℝ) : ℝ :=
  (((-vehicle_mass) * (sin (gamma vehicle_propulsion_thrust_total vehicle_drag vehicle_mass))) *
    (dgamma_dthrust vehicle_propulsion_thrust_total vehicle_drag vehicle_mass)) - (sin
    vehicle_angle_of_attack)

/-- Partial of `required_lift` with respect to `vehicle_drag` as set by `EOMRates`, aviary/mission/two_dof/ode/flight_eom.py:165 -/
noncomputable def J_required_lift__vehicle_drag (vehicle_propulsion_thrust_total vehicle_drag vehicle_mass : ℝ) : ℝ :=
  ((-vehicle_mass) * (sin (gamma vehicle_propulsion_thrust_total vehicle_drag vehicle_mass))) *
    (dgamma_ddrag vehicle_propulsion_thrust_total vehicle_drag vehicle_mass)

/-- Partial of `required_lift` with respect to `vehicle_angle_of_attack` as set by `EOMRates`, aviary/mission/two_dof/ode/flight_eom.py:166 -/
noncomputable def J_required_lift__vehicle_angle_of_attack (vehicle_propulsion_thrust_total vehicle_angle_of_attack : ℝ) : ℝ :=
  (-vehicle_propulsion_thrust_total) * (cos vehicle_angle_of_attack)

/-- Partial of `mission_flight_path_angle` with respect to `vehicle_propulsion_thrust_total` as set by `EOMRates`, aviary/mission/two_dof/ode/flight_eom.py:168 -/
noncomputable def J_mission_flight_path_angle__vehicle_propulsion_thrust_total (vehicle_propulsion_thrust_total vehicle_drag vehicle_mass : ℝ) : ℝ :=
  dgamma_dthrust vehicle_propulsion_thrust_total vehicle_drag vehicle_mass

/-- Partial of `mission_flight_path_angle` with respect to `vehicle_drag` as set by `EOMRates`, aviary/mission/two_dof/ode/flight_eom.py:171 -/
noncomputable def J_mission_flight_path_angle__vehicle_drag (vehicle_propulsion_thrust_total vehicle_drag vehicle_mass : ℝ) : ℝ :=
  dgamma_ddrag vehicle_propulsion_thrust_total vehicle_drag vehicle_mass

/-- Partial of `mission_flight_path_angle` with respect to `vehicle_mass` as set by `EOMRates`, aviary/mission/two_dof/ode/flight_eom.py:172 -/
noncomputable def J_mission_flight_path_angle__vehicle_mass (vehicle_propulsion_thrust_total vehicle_drag vehicle_mass : ℝ) : ℝ :=
  dgamma_dweight vehicle_propulsion_thrust_total vehicle_drag vehicle_mass

theorem d_mission_altitude_rate__mission_velocity (mission_velocity
    vehicle_propulsion_thrust_total vehicle_drag vehicle_mass : ℝ) (h0 : 0 < vehicle_mass) (h1 :
    -1 < (vehicle_propulsion_thrust_total - vehicle_drag) / vehicle_mass) (h2 :
    (vehicle_propulsion_thrust_total - vehicle_drag) / vehicle_mass < 1) :
    HasDerivAt (fun t => out_mission_altitude_rate t vehicle_propulsion_thrust_total vehicle_drag vehicle_mass) (J_mission_altitude_rate__mission_velocity vehicle_propulsion_thrust_total vehicle_drag vehicle_mass) mission_velocity := by
  simp only [out_mission_altitude_rate, J_mission_altitude_rate__mission_velocity, gamma]
  (apply hasDerivAt_of_eq; on_goal 1 => (repeat' comp_step))
  all_goals try comp_side
  all_goals try simp (disch := first | assumption | positivity) only [div_mul_eq_div_div, div_half, inv_half]
  all_goals try simp only [mul_zero, zero_mul, add_zero, zero_add, sub_zero, zero_sub, mul_one, one_mul]
  all_goals try push_cast
  all_goals comp_eq

theorem d_mission_altitude_rate__vehicle_propulsion_thrust_total (mission_velocity
    vehicle_propulsion_thrust_total vehicle_drag vehicle_mass : ℝ) (h0 : 0 < vehicle_mass) (h1 :
    -1 < (vehicle_propulsion_thrust_total - vehicle_drag) / vehicle_mass) (h2 :
    (vehicle_propulsion_thrust_total - vehicle_drag) / vehicle_mass < 1) (h3 : 0 < 1 -
    (((vehicle_propulsion_thrust_total - vehicle_drag) / vehicle_mass) ^ 2)) :
    HasDerivAt (fun t => out_mission_altitude_rate mission_velocity t vehicle_drag vehicle_mass) (J_mission_altitude_rate__vehicle_propulsion_thrust_total mission_velocity vehicle_propulsion_thrust_total vehicle_drag vehicle_mass) vehicle_propulsion_thrust_total := by
  have e0 : ∀ x : ℝ, 0 < x → x ^ ((-(1 / 2)) : ℝ) = x ^ ((1 / 2) : ℝ) / x ^ 1 := fun x hx => rpow_down hx 1 (by norm_num)
  simp only [out_mission_altitude_rate, J_mission_altitude_rate__vehicle_propulsion_thrust_total, dgamma_dthrust, fact, gamma]
  (apply hasDerivAt_of_eq; on_goal 1 => (repeat' comp_step))
  all_goals try comp_side
  all_goals try simp (disch := first | assumption | positivity) only [e0, div_mul_eq_div_div, div_half, inv_half]
  all_goals try simp only [mul_zero, zero_mul, add_zero, zero_add, sub_zero, zero_sub, mul_one, one_mul]
  all_goals try push_cast
  all_goals comp_eq

theorem d_mission_altitude_rate__vehicle_drag (mission_velocity vehicle_propulsion_thrust_total
    vehicle_drag vehicle_mass : ℝ) (h0 : 0 < vehicle_mass) (h1 : -1 <
    (vehicle_propulsion_thrust_total - vehicle_drag) / vehicle_mass) (h2 :
    (vehicle_propulsion_thrust_total - vehicle_drag) / vehicle_mass < 1) (h3 : 0 < 1 -
    (((vehicle_propulsion_thrust_total - vehicle_drag) / vehicle_mass) ^ 2)) :
    HasDerivAt (fun t => out_mission_altitude_rate mission_velocity vehicle_propulsion_thrust_total t vehicle_mass) (J_mission_altitude_rate__vehicle_drag mission_velocity vehicle_propulsion_thrust_total vehicle_drag vehicle_mass) vehicle_drag := by
  have e0 : ∀ x : ℝ, 0 < x → x ^ ((-(1 / 2)) : ℝ) = x ^ ((1 / 2) : ℝ) / x ^ 1 := fun x hx => rpow_down hx 1 (by norm_num)
  simp only [out_mission_altitude_rate, J_mission_altitude_rate__vehicle_drag, dgamma_ddrag, fact, gamma]
  (apply hasDerivAt_of_eq; on_goal 1 => (repeat' comp_step))
  all_goals try comp_side
  all_goals try simp (disch := first | assumption | positivity) only [e0, div_mul_eq_div_div, div_half, inv_half]
  all_goals try simp only [mul_zero, zero_mul, add_zero, zero_add, sub_zero, zero_sub, mul_one, one_mul]
  all_goals try push_cast
  all_goals comp_eq

theorem d_mission_altitude_rate__vehicle_mass (mission_velocity vehicle_propulsion_thrust_total
    vehicle_drag vehicle_mass : ℝ) (h0 : 0 < vehicle_mass) (h1 : -1 <
    (vehicle_propulsion_thrust_total - vehicle_drag) / vehicle_mass) (h2 :
    (vehicle_propulsion_thrust_total - vehicle_drag) / vehicle_mass < 1) (h3 : 0 < 1 -
    (((vehicle_propulsion_thrust_total - vehicle_drag) / vehicle_mass) ^ 2)) :
    HasDerivAt (fun t => out_mission_altitude_rate mission_velocity vehicle_propulsion_thrust_total vehicle_drag t) (J_mission_altitude_rate__vehicle_mass mission_velocity vehicle_propulsion_thrust_total vehicle_drag vehicle_mass) vehicle_mass := by
  have e0 : ∀ x : ℝ, 0 < x → x ^ ((-(1 / 2)) : ℝ) = x ^ ((1 / 2) : ℝ) / x ^ 1 := fun x hx => rpow_down hx 1 (by norm_num)
  simp only [out_mission_altitude_rate, J_mission_altitude_rate__vehicle_mass, dgamma_dweight, fact, gamma]
  (apply hasDerivAt_of_eq; on_goal 1 => (repeat' comp_step))
  all_goals try comp_side
  all_goals try simp (disch := first | assumption | positivity) only [e0, div_mul_eq_div_div, div_half, inv_half]
  all_goals try simp only [mul_zero, zero_mul, add_zero, zero_add, sub_zero, zero_sub, mul_one, one_mul]
  all_goals try push_cast
  all_goals comp_eq

theorem d_mission_distance_rate__mission_velocity (mission_velocity
    vehicle_propulsion_thrust_total vehicle_drag vehicle_mass : ℝ) (h0 : 0 < vehicle_mass) (h1 :
    -1 < (vehicle_propulsion_thrust_total - vehicle_drag) / vehicle_mass) (h2 :
    (vehicle_propulsion_thrust_total - vehicle_drag) / vehicle_mass < 1) :
    HasDerivAt (fun t => out_mission_distance_rate t vehicle_propulsion_thrust_total vehicle_drag vehicle_mass) (J_mission_distance_rate__mission_velocity vehicle_propulsion_thrust_total vehicle_drag vehicle_mass) mission_velocity := by
  simp only [out_mission_distance_rate, J_mission_distance_rate__mission_velocity, gamma]
  (apply hasDerivAt_of_eq; on_goal 1 => (repeat' comp_step))
  all_goals try comp_side
  all_goals try simp (disch := first | assumption | positivity) only [div_mul_eq_div_div, div_half, inv_half]
  all_goals try simp only [mul_zero, zero_mul, add_zero, zero_add, sub_zero, zero_sub, mul_one, one_mul]
  all_goals try push_cast
  all_goals comp_eq

theorem d_mission_distance_rate__vehicle_propulsion_thrust_total (mission_velocity
    vehicle_propulsion_thrust_total vehicle_drag vehicle_mass : ℝ) (h0 : 0 < vehicle_mass) (h1 :
    -1 < (vehicle_propulsion_thrust_total - vehicle_drag) / vehicle_mass) (h2 :
    (vehicle_propulsion_thrust_total - vehicle_drag) / vehicle_mass < 1) (h3 : 0 < 1 -
    (((vehicle_propulsion_thrust_total - vehicle_drag) / vehicle_mass) ^ 2)) :
    HasDerivAt (fun t => out_mission_distance_rate mission_velocity t vehicle_drag vehicle_mass) (J_mission_distance_rate__vehicle_propulsion_thrust_total mission_velocity vehicle_propulsion_thrust_total vehicle_drag vehicle_mass) vehicle_propulsion_thrust_total := by
  have e0 : ∀ x : ℝ, 0 < x → x ^ ((-(1 / 2)) : ℝ) = x ^ ((1 / 2) : ℝ) / x ^ 1 := fun x hx => rpow_down hx 1 (by norm_num)
  simp only [out_mission_distance_rate, J_mission_distance_rate__vehicle_propulsion_thrust_total, dgamma_dthrust, fact, gamma]
  (apply hasDerivAt_of_eq; on_goal 1 => (repeat' comp_step))
  all_goals try comp_side
  all_goals try simp (disch := first | assumption | positivity) only [e0, div_mul_eq_div_div, div_half, inv_half]
  all_goals try simp only [mul_zero, zero_mul, add_zero, zero_add, sub_zero, zero_sub, mul_one, one_mul]
  all_goals try push_cast
  all_goals comp_eq

theorem d_mission_distance_rate__vehicle_drag (mission_velocity vehicle_propulsion_thrust_total
    vehicle_drag vehicle_mass : ℝ) (h0 : 0 < vehicle_mass) (h1 : -1 <
    (vehicle_propulsion_thrust_total - vehicle_drag) / vehicle_mass) (h2 :
    (vehicle_propulsion_thrust_total - vehicle_drag) / vehicle_mass < 1) (h3 : 0 < 1 -
    (((vehicle_propulsion_thrust_total - vehicle_drag) / vehicle_mass) ^ 2)) :
    HasDerivAt (fun t => out_mission_distance_rate mission_velocity vehicle_propulsion_thrust_total t vehicle_mass) (J_mission_distance_rate__vehicle_drag mission_velocity vehicle_propulsion_thrust_total vehicle_drag vehicle_mass) vehicle_drag := by
  have e0 : ∀ x : ℝ, 0 < x → x ^ ((-(1 / 2)) : ℝ) = x ^ ((1 / 2) : ℝ) / x ^ 1 := fun x hx => rpow_down hx 1 (by norm_num)
  simp only [out_mission_distance_rate, J_mission_distance_rate__vehicle_drag, dgamma_ddrag, fact, gamma]
  (apply hasDerivAt_of_eq; on_goal 1 => (repeat' comp_step))
  all_goals try comp_side
  all_goals try simp (disch := first | assumption | positivity) only [e0, div_mul_eq_div_div, div_half, inv_half]
  all_goals try simp only [mul_zero, zero_mul, add_zero, zero_add, sub_zero, zero_sub, mul_one, one_mul]
  all_goals try push_cast
  all_goals comp_eq

theorem d_mission_distance_rate__vehicle_mass (mission_velocity vehicle_propulsion_thrust_total
    vehicle_drag vehicle_mass : ℝ) (h0 : 0 < vehicle_mass) (h1 : -1 <
    (vehicle_propulsion_thrust_total - vehicle_drag) / vehicle_mass) (h2 :
    (vehicle_propulsion_thrust_total - vehicle_drag) / vehicle_mass < 1) (h3 : 0 < 1 -
    (((vehicle_propulsion_thrust_total - vehicle_drag) / vehicle_mass) ^ 2)) :
    HasDerivAt (fun t => out_mission_distance_rate mission_velocity vehicle_propulsion_thrust_total vehicle_drag t) (J_mission_distance_rate__vehicle_mass mission_velocity vehicle_propulsion_thrust_total vehicle_drag vehicle_mass) vehicle_mass := by
  have e0 : ∀ x : ℝ, 0 < x → x ^ ((-(1 / 2)) : ℝ) = x ^ ((1 / 2) : ℝ) / x ^ 1 := fun x hx => rpow_down hx 1 (by norm_num)
  simp only [out_mission_distance_rate, J_mission_distance_rate__vehicle_mass, dgamma_dweight, fact, gamma]
  (apply hasDerivAt_of_eq; on_goal 1 => (repeat' comp_step))
  all_goals try comp_side
  all_goals try simp (disch := first | assumption | positivity) only [e0, div_mul_eq_div_div, div_half, inv_half]
  all_goals try simp only [mul_zero, zero_mul, add_zero, zero_add, sub_zero, zero_sub, mul_one, one_mul]
  all_goals try push_cast
  all_goals comp_eq

theorem d_required_lift__vehicle_propulsion_thrust_total (vehicle_propulsion_thrust_total
    vehicle_drag vehicle_mass vehicle_angle_of_attack : ℝ) (h0 : 0 < vehicle_mass) (h1 : -1 <
    (vehicle_propulsion_thrust_total - vehicle_drag) / vehicle_mass) (h2 :
    (vehicle_propulsion_thrust_total - vehicle_drag) / vehicle_mass < 1) (h3 : 0 < 1 -
    (((vehicle_propulsion_thrust_total - vehicle_drag) / vehicle_mass) ^ 2)) :
    HasDerivAt (fun t => out_required_lift t vehicle_drag vehicle_mass vehicle_angle_of_attack) (J_required_lift__vehicle_propulsion_thrust_total vehicle_propulsion_thrust_total vehicle_drag vehicle_mass vehicle_angle_of_attack) vehicle_propulsion_thrust_total := by
  have e0 : ∀ x : ℝ, 0 < x → x ^ ((-(1 / 2)) : ℝ) = x ^ ((1 / 2) : ℝ) / x ^ 1 := fun x hx => rpow_down hx 1 (by norm_num)
  simp only [out_required_lift, J_required_lift__vehicle_propulsion_thrust_total, dgamma_dthrust, fact, gamma]
  (apply hasDerivAt_of_eq; on_goal 1 => (repeat' comp_step))
  all_goals try comp_side
  all_goals try simp (disch := first | assumption | positivity) only [e0, div_mul_eq_div_div, div_half, inv_half]
  all_goals try simp only [mul_zero, zero_mul, add_zero, zero_add, sub_zero, zero_sub, mul_one, one_mul]
  all_goals try push_cast
  all_goals comp_eq

theorem d_required_lift__vehicle_drag (vehicle_propulsion_thrust_total vehicle_drag vehicle_mass
    vehicle_angle_of_attack : ℝ) (h0 : 0 < vehicle_mass) (h1 : -1 <
    (vehicle_propulsion_thrust_total - vehicle_drag) / vehicle_mass) (h2 :
    (vehicle_propulsion_thrust_total - vehicle_drag) / vehicle_mass < 1) (h3 : 0 < 1 -
    (((vehicle_propulsion_thrust_total - vehicle_drag) / vehicle_mass) ^ 2)) :
    HasDerivAt (fun t => out_required_lift vehicle_propulsion_thrust_total t vehicle_mass vehicle_angle_of_attack) (J_required_lift__vehicle_drag vehicle_propulsion_thrust_total vehicle_drag vehicle_mass) vehicle_drag := by
  have e0 : ∀ x : ℝ, 0 < x → x ^ ((-(1 / 2)) : ℝ) = x ^ ((1 / 2) : ℝ) / x ^ 1 := fun x hx => rpow_down hx 1 (by norm_num)
  simp only [out_required_lift, J_required_lift__vehicle_drag, dgamma_ddrag, fact, gamma]
  (apply hasDerivAt_of_eq; on_goal 1 => (repeat' comp_step))
  all_goals try comp_side
  all_goals try simp (disch := first | assumption | positivity) only [e0, div_mul_eq_div_div, div_half, inv_half]
  all_goals try simp only [mul_zero, zero_mul, add_zero, zero_add, sub_zero, zero_sub, mul_one, one_mul]
  all_goals try push_cast
  all_goals comp_eq

theorem d_required_lift__vehicle_mass (vehicle_propulsion_thrust_total vehicle_drag vehicle_mass
    vehicle_angle_of_attack : ℝ) (h0 : 0 < vehicle_mass) (h1 : -1 <
    (vehicle_propulsion_thrust_total - vehicle_drag) / vehicle_mass) (h2 :
    (vehicle_propulsion_thrust_total - vehicle_drag) / vehicle_mass < 1) (h3 : 0 < 1 -
    (((vehicle_propulsion_thrust_total - vehicle_drag) / vehicle_mass) ^ 2)) :
    HasDerivAt (fun t => out_required_lift vehicle_propulsion_thrust_total vehicle_drag t vehicle_angle_of_attack) (J_required_lift__vehicle_mass vehicle_propulsion_thrust_total vehicle_drag vehicle_mass) vehicle_mass := by
  have e0 : ∀ x : ℝ, 0 < x → x ^ ((-(1 / 2)) : ℝ) = x ^ ((1 / 2) : ℝ) / x ^ 1 := fun x hx => rpow_down hx 1 (by norm_num)
  simp only [out_required_lift, J_required_lift__vehicle_mass, dgamma_dweight, fact, gamma]
  (apply hasDerivAt_of_eq; on_goal 1 => (repeat' comp_step))
  all_goals try comp_side
  all_goals try simp (disch := first | assumption | positivity) only [e0, div_mul_eq_div_div, div_half, inv_half]
  all_goals try simp only [mul_zero, zero_mul, add_zero, zero_add, sub_zero, zero_sub, mul_one, one_mul]
  all_goals try push_cast
  all_goals comp_eq

theorem d_required_lift__vehicle_angle_of_attack (vehicle_propulsion_thrust_total vehicle_drag
    vehicle_mass vehicle_angle_of_attack : ℝ) (h0 : 0 < vehicle_mass) (h1 : -1 <
    (vehicle_propulsion_thrust_total - vehicle_drag) / vehicle_mass) (h2 :
    (vehicle_propulsion_thrust_total - vehicle_drag) / vehicle_mass < 1) :
    HasDerivAt (fun t => out_required_lift vehicle_propulsion_thrust_total vehicle_drag vehicle_mass t) (J_required_lift__vehicle_angle_of_attack vehicle_propulsion_thrust_total vehicle_angle_of_attack) vehicle_angle_of_attack := by
  simp only [out_required_lift, J_required_lift__vehicle_angle_of_attack, gamma]
  (apply hasDerivAt_of_eq; on_goal 1 => (repeat' comp_step))
  all_goals try comp_side
  all_goals try simp (disch := first | assumption | positivity) only [div_mul_eq_div_div, div_half, inv_half]
  all_goals try simp only [mul_zero, zero_mul, add_zero, zero_add, sub_zero, zero_sub, mul_one, one_mul]
  all_goals try push_cast
  all_goals comp_eq

theorem d_mission_flight_path_angle__vehicle_propulsion_thrust_total
    (vehicle_propulsion_thrust_total vehicle_drag vehicle_mass : ℝ) (h0 : 0 < vehicle_mass) (h1 :
    -1 < (vehicle_propulsion_thrust_total - vehicle_drag) / vehicle_mass) (h2 :
    (vehicle_propulsion_thrust_total - vehicle_drag) / vehicle_mass < 1) (h3 : 0 < 1 -
    (((vehicle_propulsion_thrust_total - vehicle_drag) / vehicle_mass) ^ 2)) :
    HasDerivAt (fun t => out_mission_flight_path_angle t vehicle_drag vehicle_mass) (J_mission_flight_path_angle__vehicle_propulsion_thrust_total vehicle_propulsion_thrust_total vehicle_drag vehicle_mass) vehicle_propulsion_thrust_total := by
  have e0 : ∀ x : ℝ, 0 < x → x ^ ((-(1 / 2)) : ℝ) = x ^ ((1 / 2) : ℝ) / x ^ 1 := fun x hx => rpow_down hx 1 (by norm_num)
  simp only [out_mission_flight_path_angle, J_mission_flight_path_angle__vehicle_propulsion_thrust_total, dgamma_dthrust, fact, gamma]
  (apply hasDerivAt_of_eq; on_goal 1 => (repeat' comp_step))
  all_goals try comp_side
  all_goals try simp (disch := first | assumption | positivity) only [e0, div_mul_eq_div_div, div_half, inv_half]
  all_goals try simp only [mul_zero, zero_mul, add_zero, zero_add, sub_zero, zero_sub, mul_one, one_mul]
  all_goals try push_cast
  all_goals comp_eq

theorem d_mission_flight_path_angle__vehicle_drag (vehicle_propulsion_thrust_total vehicle_drag
    vehicle_mass : ℝ) (h0 : 0 < vehicle_mass) (h1 : -1 < (vehicle_propulsion_thrust_total -
    vehicle_drag) / vehicle_mass) (h2 : (vehicle_propulsion_thrust_total - vehicle_drag) /
    vehicle_mass < 1) (h3 : 0 < 1 - (((vehicle_propulsion_thrust_total - vehicle_drag) /
    vehicle_mass) ^ 2)) :
    HasDerivAt (fun t => out_mission_flight_path_angle vehicle_propulsion_thrust_total t vehicle_mass) (J_mission_flight_path_angle__vehicle_drag vehicle_propulsion_thrust_total vehicle_drag vehicle_mass) vehicle_drag := by
  have e0 : ∀ x : ℝ, 0 < x → x ^ ((-(1 / 2)) : ℝ) = x ^ ((1 / 2) : ℝ) / x ^ 1 := fun x hx => rpow_down hx 1 (by norm_num)
  simp only [out_mission_flight_path_angle, J_mission_flight_path_angle__vehicle_drag, dgamma_ddrag, fact, gamma]
  (apply hasDerivAt_of_eq; on_goal 1 => (repeat' comp_step))
  all_goals try comp_side
  all_goals try simp (disch := first | assumption | positivity) only [e0, div_mul_eq_div_div, div_half, inv_half]
  all_goals try simp only [mul_zero, zero_mul, add_zero, zero_add, sub_zero, zero_sub, mul_one, one_mul]
  all_goals try push_cast
  all_goals comp_eq

theorem d_mission_flight_path_angle__vehicle_mass (vehicle_propulsion_thrust_total vehicle_drag
    vehicle_mass : ℝ) (h0 : 0 < vehicle_mass) (h1 : -1 < (vehicle_propulsion_thrust_total -
    vehicle_drag) / vehicle_mass) (h2 : (vehicle_propulsion_thrust_total - vehicle_drag) /
    vehicle_mass < 1) (h3 : 0 < 1 - (((vehicle_propulsion_thrust_total - vehicle_drag) /
    vehicle_mass) ^ 2)) :
    HasDerivAt (fun t => out_mission_flight_path_angle vehicle_propulsion_thrust_total vehicle_drag t) (J_mission_flight_path_angle__vehicle_mass vehicle_propulsion_thrust_total vehicle_drag vehicle_mass) vehicle_mass := by
  have e0 : ∀ x : ℝ, 0 < x → x ^ ((-(1 / 2)) : ℝ) = x ^ ((1 / 2) : ℝ) / x ^ 1 := fun x hx => rpow_down hx 1 (by norm_num)
  simp only [out_mission_flight_path_angle, J_mission_flight_path_angle__vehicle_mass, dgamma_dweight, fact, gamma]
  (apply hasDerivAt_of_eq; on_goal 1 => (repeat' comp_step))
  all_goals try comp_side
  all_goals try simp (disch := first | assumption | positivity) only [e0, div_mul_eq_div_div, div_half, inv_half]
  all_goals try simp only [mul_zero, zero_mul, add_zero, zero_add, sub_zero, zero_sub, mul_one, one_mul]
  all_goals try push_cast
  all_goals comp_eq

/-- Every partial derivative set by `EOMRates` is the derivative of its output. -/
theorem partials (mission_velocity vehicle_propulsion_thrust_total vehicle_drag vehicle_mass
    vehicle_angle_of_attack : ℝ) (h0 : 0 < vehicle_mass) (h1 : -1 <
    (vehicle_propulsion_thrust_total - vehicle_drag) / vehicle_mass) (h2 :
    (vehicle_propulsion_thrust_total - vehicle_drag) / vehicle_mass < 1) (h3 : 0 < 1 -
    (((vehicle_propulsion_thrust_total - vehicle_drag) / vehicle_mass) ^ 2)) :
    HasDerivAt (fun t => out_mission_altitude_rate t vehicle_propulsion_thrust_total vehicle_drag
      vehicle_mass) (J_mission_altitude_rate__mission_velocity vehicle_propulsion_thrust_total
      vehicle_drag vehicle_mass) mission_velocity ∧
    HasDerivAt (fun t => out_mission_altitude_rate mission_velocity t vehicle_drag vehicle_mass)
      (J_mission_altitude_rate__vehicle_propulsion_thrust_total mission_velocity
      vehicle_propulsion_thrust_total vehicle_drag vehicle_mass) vehicle_propulsion_thrust_total ∧
    HasDerivAt (fun t => out_mission_altitude_rate mission_velocity vehicle_propulsion_thrust_total t
      vehicle_mass) (J_mission_altitude_rate__vehicle_drag mission_velocity
      vehicle_propulsion_thrust_total vehicle_drag vehicle_mass) vehicle_drag ∧
    HasDerivAt (fun t => out_mission_altitude_rate mission_velocity vehicle_propulsion_thrust_total
      vehicle_drag t) (J_mission_altitude_rate__vehicle_mass mission_velocity
      vehicle_propulsion_thrust_total vehicle_drag vehicle_mass) vehicle_mass ∧
    HasDerivAt (fun t => out_mission_distance_rate t vehicle_propulsion_thrust_total vehicle_drag
      vehicle_mass) (J_mission_distance_rate__mission_velocity vehicle_propulsion_thrust_total
      vehicle_drag vehicle_mass) mission_velocity ∧
    HasDerivAt (fun t => out_mission_distance_rate mission_velocity t vehicle_drag vehicle_mass)
      (J_mission_distance_rate__vehicle_propulsion_thrust_total mission_velocity
      vehicle_propulsion_thrust_total vehicle_drag vehicle_mass) vehicle_propulsion_thrust_total ∧
    HasDerivAt (fun t => out_mission_distance_rate mission_velocity vehicle_propulsion_thrust_total t
      vehicle_mass) (J_mission_distance_rate__vehicle_drag mission_velocity
      vehicle_propulsion_thrust_total vehicle_drag vehicle_mass) vehicle_drag ∧
    HasDerivAt (fun t => out_mission_distance_rate mission_velocity vehicle_propulsion_thrust_total
      vehicle_drag t) (J_mission_distance_rate__vehicle_mass mission_velocity
      vehicle_propulsion_thrust_total vehicle_drag vehicle_mass) vehicle_mass ∧
    HasDerivAt (fun t => out_required_lift t vehicle_drag vehicle_mass vehicle_angle_of_attack)
      (J_required_lift__vehicle_propulsion_thrust_total vehicle_propulsion_thrust_total
      vehicle_drag vehicle_mass vehicle_angle_of_attack) vehicle_propulsion_thrust_total ∧
    HasDerivAt (fun t => out_required_lift vehicle_propulsion_thrust_total t vehicle_mass
      vehicle_angle_of_attack) (J_required_lift__vehicle_drag vehicle_propulsion_thrust_total
      vehicle_drag vehicle_mass) vehicle_drag ∧
    HasDerivAt (fun t => out_required_lift vehicle_propulsion_thrust_total vehicle_drag t
      vehicle_angle_of_attack) (J_required_lift__vehicle_mass vehicle_propulsion_thrust_total
      vehicle_drag vehicle_mass) vehicle_mass ∧
    HasDerivAt (fun t => out_required_lift vehicle_propulsion_thrust_total vehicle_drag vehicle_mass
      t) (J_required_lift__vehicle_angle_of_attack vehicle_propulsion_thrust_total
      vehicle_angle_of_attack) vehicle_angle_of_attack ∧
    HasDerivAt (fun t => out_mission_flight_path_angle t vehicle_drag vehicle_mass)
      (J_mission_flight_path_angle__vehicle_propulsion_thrust_total
      vehicle_propulsion_thrust_total vehicle_drag vehicle_mass) vehicle_propulsion_thrust_total ∧
    HasDerivAt (fun t => out_mission_flight_path_angle vehicle_propulsion_thrust_total t vehicle_mass)
      (J_mission_flight_path_angle__vehicle_drag vehicle_propulsion_thrust_total vehicle_drag
      vehicle_mass) vehicle_drag ∧
    HasDerivAt (fun t => out_mission_flight_path_angle vehicle_propulsion_thrust_total vehicle_drag t)
      (J_mission_flight_path_angle__vehicle_mass vehicle_propulsion_thrust_total vehicle_drag
      vehicle_mass) vehicle_mass :=
  ⟨d_mission_altitude_rate__mission_velocity _ _ _ _ h0 h1 h2,
    d_mission_altitude_rate__vehicle_propulsion_thrust_total _ _ _ _ h0 h1 h2 h3,
    d_mission_altitude_rate__vehicle_drag _ _ _ _ h0 h1 h2 h3,
    d_mission_altitude_rate__vehicle_mass _ _ _ _ h0 h1 h2 h3,
    d_mission_distance_rate__mission_velocity _ _ _ _ h0 h1 h2,
    d_mission_distance_rate__vehicle_propulsion_thrust_total _ _ _ _ h0 h1 h2 h3,
    d_mission_distance_rate__vehicle_drag _ _ _ _ h0 h1 h2 h3,
    d_mission_distance_rate__vehicle_mass _ _ _ _ h0 h1 h2 h3,
    d_required_lift__vehicle_propulsion_thrust_total _ _ _ _ h0 h1 h2 h3,
    d_required_lift__vehicle_drag _ _ _ _ h0 h1 h2 h3, d_required_lift__vehicle_mass _ _ _ _ h0 h1
    h2 h3, d_required_lift__vehicle_angle_of_attack _ _ _ _ h0 h1 h2,
    d_mission_flight_path_angle__vehicle_propulsion_thrust_total _ _ _ h0 h1 h2 h3,
    d_mission_flight_path_angle__vehicle_drag _ _ _ h0 h1 h2 h3,
    d_mission_flight_path_angle__vehicle_mass _ _ _ h0 h1 h2 h3⟩

example : ∃ mission_velocity vehicle_propulsion_thrust_total vehicle_drag vehicle_mass
      vehicle_angle_of_attack : ℝ,
      0 < vehicle_mass ∧
      -1 < (vehicle_propulsion_thrust_total - vehicle_drag) / vehicle_mass ∧
      (vehicle_propulsion_thrust_total - vehicle_drag) / vehicle_mass < 1 ∧
      0 < 1 - (((vehicle_propulsion_thrust_total - vehicle_drag) / vehicle_mass) ^ 2) :=
  ⟨0, 0, 0, 1, 0, by comp_example, by comp_example, by comp_example, by comp_example⟩

end Verif.Comp.MissionTwoDofOdeFlightEom.EOMRates

