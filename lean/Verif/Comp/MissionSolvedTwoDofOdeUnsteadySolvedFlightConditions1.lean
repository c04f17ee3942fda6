import Verif.Lemmas.CompDeriv

/-! # Partial derivatives of the components of `aviary/mission/solved_two_dof/ode/unsteady_solved_flight_conditions.py`

One node of a vector component is modelled over the real numbers.  Each option that selects a
branch is fixed, one namespace per choice.  `out_x` is the output `x`, `J_x__y` the entry that
`compute_partials` (or `declare_partials` with `val`) assigns, `d_x__y` the proof that the entry is
the derivative.  Inputs an output does not take as argument have no influence on it.

* `UnsteadySolvedFlightConditions_groundroll_eas`: derivatives without an entry: `dtas_dt_approx`
  by `atmosphere_density`, `dtas_dt_approx` by `eas`

* `UnsteadySolvedFlightConditions_groundroll_otherinputspeedtype`: derivatives without an entry:
  `dtas_dt_approx` by `atmosphere_mach`, `dtas_dt_approx` by `atmosphere_speed_of_sound`

* `UnsteadySolvedFlightConditions_no_groundroll_eas`: derivatives without an entry:
  `dtas_dt_approx` by `atmosphere_density`, `dtas_dt_approx` by `eas` -/

set_option linter.all false

namespace Verif.Comp.MissionSolvedTwoDofOdeUnsteadySolvedFlightConditions.UnsteadySolvedFlightConditions_groundroll_tas
open Real

/-- aviary/mission/solved_two_dof/ode/unsteady_solved_flight_conditions.py:306 -/
noncomputable def sqrt_rho_rho_sl (sea_level_density atmosphere_density : ℝ) : ℝ :=
  sqrt (atmosphere_density / sea_level_density)

/-- aviary/mission/solved_two_dof/ode/unsteady_solved_flight_conditions.py:350 -/
noncomputable def dsqrt_rho_rho_sl_drho (sea_level_density atmosphere_density : ℝ) : ℝ :=
  ((1 / 2) / (sqrt_rho_rho_sl sea_level_density atmosphere_density)) / sea_level_density

/-- Output `atmosphere_mach` of `UnsteadySolvedFlightConditions.compute`, aviary/mission/solved_two_dof/ode/unsteady_solved_flight_conditions.py:315 -/
noncomputable def out_atmosphere_mach (atmosphere_speed_of_sound mission_velocity : ℝ) : ℝ :=
  mission_velocity / atmosphere_speed_of_sound

/-- Output `eas` of `UnsteadySolvedFlightConditions.compute`, aviary/mission/solved_two_dof/ode/unsteady_solved_flight_conditions.py:316 -/
noncomputable def out_eas (sea_level_density atmosphere_density mission_velocity : ℝ) : ℝ :=
  mission_velocity * (sqrt_rho_rho_sl sea_level_density atmosphere_density)

/-- Output `dtas_dt_approx` of `UnsteadySolvedFlightConditions.compute`, aviary/mission/solved_two_dof/ode/unsteady_solved_flight_conditions.py:317 -/
noncomputable def out_dtas_dt_approx (mission_velocity dtas_dr : ℝ) : ℝ :=
  dtas_dr * mission_velocity

/-- Output `atmosphere_dynamic_pressure` of `UnsteadySolvedFlightConditions.compute`, aviary/mission/solved_two_dof/ode/unsteady_solved_flight_conditions.py:341 -/
noncomputable def out_atmosphere_dynamic_pressure (atmosphere_density mission_velocity : ℝ) : ℝ :=
  ((1 / 2) * atmosphere_density) * (mission_velocity ^ 2)

/-- Partial of `atmosphere_dynamic_pressure` with respect to `mission_velocity` as set by `UnsteadySolvedFlightConditions`, aviary/mission/solved_two_dof/ode/unsteady_solved_flight_conditions.py:362 -/
noncomputable def J_atmosphere_dynamic_pressure__mission_velocity (atmosphere_density mission_velocity : ℝ) : ℝ :=
  atmosphere_density * mission_velocity

/-- Partial of `atmosphere_dynamic_pressure` with respect to `atmosphere_density` as set by `UnsteadySolvedFlightConditions`, aviary/mission/solved_two_dof/ode/unsteady_solved_flight_conditions.py:363 -/
noncomputable def J_atmosphere_dynamic_pressure__atmosphere_density (mission_velocity : ℝ) : ℝ :=
  (1 / 2) * (mission_velocity ^ 2)

/-- Partial of `atmosphere_mach` with respect to `mission_velocity` as set by `UnsteadySolvedFlightConditions`, aviary/mission/solved_two_dof/ode/unsteady_solved_flight_conditions.py:365 -/
noncomputable def J_atmosphere_mach__mission_velocity (atmosphere_speed_of_sound : ℝ) : ℝ :=
  1 / atmosphere_speed_of_sound

/-- Partial of `atmosphere_mach` with respect to `atmosphere_speed_of_sound` as set by `UnsteadySolvedFlightConditions`, aviary/mission/solved_two_dof/ode/unsteady_solved_flight_conditions.py:366 -/
noncomputable def J_atmosphere_mach__atmosphere_speed_of_sound (atmosphere_speed_of_sound mission_velocity : ℝ) : ℝ :=
  (-mission_velocity) / (atmosphere_speed_of_sound ^ 2)

/-- Partial of `eas` with respect to `mission_velocity` as set by `UnsteadySolvedFlightConditions`, aviary/mission/solved_two_dof/ode/unsteady_solved_flight_conditions.py:368 -/
noncomputable def J_eas__mission_velocity (sea_level_density atmosphere_density : ℝ) : ℝ :=
  sqrt_rho_rho_sl sea_level_density atmosphere_density

/-- Partial of `eas` with respect to `atmosphere_density` as set by `UnsteadySolvedFlightConditions`, aviary/mission/solved_two_dof/ode/unsteady_solved_flight_conditions.py:369 -/
noncomputable def J_eas__atmosphere_density (sea_level_density atmosphere_density mission_velocity : ℝ) : ℝ :=
  mission_velocity * (dsqrt_rho_rho_sl_drho sea_level_density atmosphere_density)

/-- Partial of `dtas_dt_approx` with respect to `dtas_dr` as set by `UnsteadySolvedFlightConditions`, aviary/mission/solved_two_dof/ode/unsteady_solved_flight_conditions.py:371 -/
noncomputable def J_dtas_dt_approx__dtas_dr (mission_velocity : ℝ) : ℝ := mission_velocity

/-- Partial of `dtas_dt_approx` with respect to `mission_velocity` as set by `UnsteadySolvedFlightConditions`, aviary/mission/solved_two_dof/ode/unsteady_solved_flight_conditions.py:372 -/
noncomputable def J_dtas_dt_approx__mission_velocity (dtas_dr : ℝ) : ℝ := dtas_dr

theorem d_atmosphere_mach__atmosphere_speed_of_sound (atmosphere_speed_of_sound mission_velocity :
    ℝ) (h0 : 0 < atmosphere_speed_of_sound) :
    HasDerivAt (fun t => out_atmosphere_mach t mission_velocity) (J_atmosphere_mach__atmosphere_speed_of_sound atmosphere_speed_of_sound mission_velocity) atmosphere_speed_of_sound := by
  simp only [out_atmosphere_mach, J_atmosphere_mach__atmosphere_speed_of_sound]
  (apply hasDerivAt_of_eq; on_goal 1 => (repeat' comp_step))
  all_goals try comp_side
  all_goals try simp only [mul_zero, zero_mul, add_zero, zero_add, sub_zero, zero_sub, mul_one, one_mul]
  all_goals try push_cast
  all_goals comp_eq

theorem d_atmosphere_mach__mission_velocity (atmosphere_speed_of_sound mission_velocity : ℝ) (h0 :
    0 < atmosphere_speed_of_sound) :
    HasDerivAt (fun t => out_atmosphere_mach atmosphere_speed_of_sound t) (J_atmosphere_mach__mission_velocity atmosphere_speed_of_sound) mission_velocity := by
  simp only [out_atmosphere_mach, J_atmosphere_mach__mission_velocity]
  (apply hasDerivAt_of_eq; on_goal 1 => (repeat' comp_step))
  all_goals try comp_side
  all_goals try simp only [mul_zero, zero_mul, add_zero, zero_add, sub_zero, zero_sub, mul_one, one_mul]
  all_goals try push_cast
  all_goals comp_eq

theorem d_eas__atmosphere_density (sea_level_density atmosphere_density mission_velocity : ℝ) (h0
    : 0 < sea_level_density) (h1 : 0 < atmosphere_density) :
    HasDerivAt (fun t => out_eas sea_level_density t mission_velocity) (J_eas__atmosphere_density sea_level_density atmosphere_density mission_velocity) atmosphere_density := by
  simp only [out_eas, J_eas__atmosphere_density, dsqrt_rho_rho_sl_drho, sqrt_rho_rho_sl, sqrt_eq_rpow]
  (apply hasDerivAt_of_eq; on_goal 1 => (repeat' comp_step))
  all_goals try comp_side
  all_goals try simp (disch := first | assumption | positivity) only [div_mul_eq_div_div, div_half, inv_half]
  all_goals try simp only [mul_zero, zero_mul, add_zero, zero_add, sub_zero, zero_sub, mul_one, one_mul]
  all_goals try push_cast
  all_goals comp_eq

theorem d_eas__mission_velocity (sea_level_density atmosphere_density mission_velocity : ℝ) (h0 :
    0 < sea_level_density) (h1 : 0 < atmosphere_density) :
    HasDerivAt (fun t => out_eas sea_level_density atmosphere_density t) (J_eas__mission_velocity sea_level_density atmosphere_density) mission_velocity := by
  simp only [out_eas, J_eas__mission_velocity, sqrt_rho_rho_sl, sqrt_eq_rpow]
  (apply hasDerivAt_of_eq; on_goal 1 => (repeat' comp_step))
  all_goals try comp_side
  all_goals try simp (disch := first | assumption | positivity) only [div_mul_eq_div_div, div_half, inv_half]
  all_goals try simp only [mul_zero, zero_mul, add_zero, zero_add, sub_zero, zero_sub, mul_one, one_mul]
  all_goals try push_cast
  all_goals comp_eq

theorem d_dtas_dt_approx__mission_velocity (mission_velocity dtas_dr : ℝ)  :
    HasDerivAt (fun t => out_dtas_dt_approx t dtas_dr) (J_dtas_dt_approx__mission_velocity dtas_dr) mission_velocity := by
  simp only [out_dtas_dt_approx, J_dtas_dt_approx__mission_velocity]
  (apply hasDerivAt_of_eq; on_goal 1 => (repeat' comp_step))
  all_goals try comp_side
  all_goals try simp only [mul_zero, zero_mul, add_zero, zero_add, sub_zero, zero_sub, mul_one, one_mul]
  all_goals try push_cast
  all_goals comp_eq

theorem d_dtas_dt_approx__dtas_dr (mission_velocity dtas_dr : ℝ)  :
    HasDerivAt (fun t => out_dtas_dt_approx mission_velocity t) (J_dtas_dt_approx__dtas_dr mission_velocity) dtas_dr := by
  simp only [out_dtas_dt_approx, J_dtas_dt_approx__dtas_dr]
  (apply hasDerivAt_of_eq; on_goal 1 => (repeat' comp_step))
  all_goals try comp_side
  all_goals try simp only [mul_zero, zero_mul, add_zero, zero_add, sub_zero, zero_sub, mul_one, one_mul]
  all_goals try push_cast
  all_goals comp_eq

theorem d_atmosphere_dynamic_pressure__atmosphere_density (atmosphere_density mission_velocity :
    ℝ)  :
    HasDerivAt (fun t => out_atmosphere_dynamic_pressure t mission_velocity) (J_atmosphere_dynamic_pressure__atmosphere_density mission_velocity) atmosphere_density := by
  simp only [out_atmosphere_dynamic_pressure, J_atmosphere_dynamic_pressure__atmosphere_density]
  (apply hasDerivAt_of_eq; on_goal 1 => (repeat' comp_step))
  all_goals try comp_side
  all_goals try simp only [mul_zero, zero_mul, add_zero, zero_add, sub_zero, zero_sub, mul_one, one_mul]
  all_goals try push_cast
  all_goals comp_eq

theorem d_atmosphere_dynamic_pressure__mission_velocity (atmosphere_density mission_velocity : ℝ)
    :
    HasDerivAt (fun t => out_atmosphere_dynamic_pressure atmosphere_density t) (J_atmosphere_dynamic_pressure__mission_velocity atmosphere_density mission_velocity) mission_velocity := by
  simp only [out_atmosphere_dynamic_pressure, J_atmosphere_dynamic_pressure__mission_velocity]
  (apply hasDerivAt_of_eq; on_goal 1 => (repeat' comp_step))
  all_goals try comp_side
  all_goals try simp only [mul_zero, zero_mul, add_zero, zero_add, sub_zero, zero_sub, mul_one, one_mul]
  all_goals try push_cast
  all_goals comp_eq

/-- Every partial derivative set by `UnsteadySolvedFlightConditions` is the derivative of its output. -/
theorem partials (sea_level_density atmosphere_density atmosphere_speed_of_sound mission_velocity
    dtas_dr : ℝ) (h0 : 0 < atmosphere_speed_of_sound) (h1 : 0 < sea_level_density) (h2 : 0 <
    atmosphere_density) :
    HasDerivAt (fun t => out_atmosphere_mach t mission_velocity)
      (J_atmosphere_mach__atmosphere_speed_of_sound atmosphere_speed_of_sound mission_velocity)
      atmosphere_speed_of_sound ∧
    HasDerivAt (fun t => out_atmosphere_mach atmosphere_speed_of_sound t)
      (J_atmosphere_mach__mission_velocity atmosphere_speed_of_sound) mission_velocity ∧
    HasDerivAt (fun t => out_eas sea_level_density t mission_velocity) (J_eas__atmosphere_density
      sea_level_density atmosphere_density mission_velocity) atmosphere_density ∧
    HasDerivAt (fun t => out_eas sea_level_density atmosphere_density t) (J_eas__mission_velocity
      sea_level_density atmosphere_density) mission_velocity ∧
    HasDerivAt (fun t => out_dtas_dt_approx t dtas_dr) (J_dtas_dt_approx__mission_velocity dtas_dr)
      mission_velocity ∧
    HasDerivAt (fun t => out_dtas_dt_approx mission_velocity t) (J_dtas_dt_approx__dtas_dr
      mission_velocity) dtas_dr ∧
    HasDerivAt (fun t => out_atmosphere_dynamic_pressure t mission_velocity)
      (J_atmosphere_dynamic_pressure__atmosphere_density mission_velocity) atmosphere_density ∧
    HasDerivAt (fun t => out_atmosphere_dynamic_pressure atmosphere_density t)
      (J_atmosphere_dynamic_pressure__mission_velocity atmosphere_density mission_velocity)
      mission_velocity :=
  ⟨d_atmosphere_mach__atmosphere_speed_of_sound _ _ h0, d_atmosphere_mach__mission_velocity _ _
    h0, d_eas__atmosphere_density _ _ _ h1 h2, d_eas__mission_velocity _ _ _ h1 h2,
    d_dtas_dt_approx__mission_velocity _ _, d_dtas_dt_approx__dtas_dr _ _,
    d_atmosphere_dynamic_pressure__atmosphere_density _ _,
    d_atmosphere_dynamic_pressure__mission_velocity _ _⟩

example : ∃ sea_level_density atmosphere_density atmosphere_speed_of_sound mission_velocity
      dtas_dr : ℝ,
      0 < atmosphere_speed_of_sound ∧
      0 < sea_level_density ∧
      0 < atmosphere_density :=
  ⟨1, 1, 1, 0, 0, by comp_example, by comp_example, by comp_example⟩

end Verif.Comp.MissionSolvedTwoDofOdeUnsteadySolvedFlightConditions.UnsteadySolvedFlightConditions_groundroll_tas

namespace Verif.Comp.MissionSolvedTwoDofOdeUnsteadySolvedFlightConditions.UnsteadySolvedFlightConditions_groundroll_eas
open Real

/-- aviary/mission/solved_two_dof/ode/unsteady_solved_flight_conditions.py:306 -/
noncomputable def sqrt_rho_rho_sl (sea_level_density atmosphere_density : ℝ) : ℝ :=
  sqrt (atmosphere_density / sea_level_density)

/-- aviary/mission/solved_two_dof/ode/unsteady_solved_flight_conditions.py:323 -/
noncomputable def tas (sea_level_density atmosphere_density eas : ℝ) : ℝ :=
  eas / (sqrt_rho_rho_sl sea_level_density atmosphere_density)

/-- aviary/mission/solved_two_dof/ode/unsteady_solved_flight_conditions.py:325 -/
noncomputable def drho_dt_approx (sea_level_density atmosphere_density eas drho_dh : ℝ) : ℝ :=
  (drho_dh * (tas sea_level_density atmosphere_density eas)) * 0

/-- aviary/mission/solved_two_dof/ode/unsteady_solved_flight_conditions.py:326 -/
noncomputable def deas_dt_approx (sea_level_density atmosphere_density eas deas_dr : ℝ) : ℝ :=
  deas_dr * (tas sea_level_density atmosphere_density eas)

/-- aviary/mission/solved_two_dof/ode/unsteady_solved_flight_conditions.py:383 -/
noncomputable def dtas_drho (sea_level_density atmosphere_density eas : ℝ) : ℝ :=
  (((-(1 / 2)) * eas) * (sea_level_density ^ ((1 / 2) : ℝ))) / (atmosphere_density ^ ((3 / 2) :
    ℝ))

/-- aviary/mission/solved_two_dof/ode/unsteady_solved_flight_conditions.py:384 -/
noncomputable def dtas_deas (sea_level_density atmosphere_density : ℝ) : ℝ :=
  1 / (sqrt_rho_rho_sl sea_level_density atmosphere_density)

/-- Output `mission_velocity` of `UnsteadySolvedFlightConditions.compute`, aviary/mission/solved_two_dof/ode/unsteady_solved_flight_conditions.py:323 -/
noncomputable def out_mission_velocity (sea_level_density atmosphere_density eas : ℝ) : ℝ :=
  tas sea_level_density atmosphere_density eas

/-- Output `atmosphere_mach` of `UnsteadySolvedFlightConditions.compute`, aviary/mission/solved_two_dof/ode/unsteady_solved_flight_conditions.py:324 -/
noncomputable def out_atmosphere_mach (sea_level_density atmosphere_density atmosphere_speed_of_sound eas : ℝ) : ℝ :=
  (tas sea_level_density atmosphere_density eas) / atmosphere_speed_of_sound

/-- Output `dtas_dt_approx` of `UnsteadySolvedFlightConditions.compute`, aviary/mission/solved_two_dof/ode/unsteady_solved_flight_conditions.py:327 -/
noncomputable def out_dtas_dt_approx (sea_level_density atmosphere_density eas drho_dh deas_dr : ℝ) : ℝ :=
  ((deas_dt_approx sea_level_density atmosphere_density eas deas_dr) * ((sea_level_density /
    atmosphere_density) ^ ((3 / 2) : ℝ))) - (((((1 / 2) * eas) * (drho_dt_approx
    sea_level_density atmosphere_density eas drho_dh)) * (sea_level_density ^ ((3 / 2) : ℝ))) /
    (sea_level_density ^ ((5 / 2) : ℝ)))

/-- Output `atmosphere_dynamic_pressure` of `UnsteadySolvedFlightConditions.compute`, aviary/mission/solved_two_dof/ode/unsteady_solved_flight_conditions.py:341 -/
noncomputable def out_atmosphere_dynamic_pressure (sea_level_density atmosphere_density eas : ℝ) : ℝ :=
  ((1 / 2) * atmosphere_density) * ((tas sea_level_density atmosphere_density eas) ^ 2)

/-- Partial of `atmosphere_dynamic_pressure` with respect to `eas` as set by `UnsteadySolvedFlightConditions`, aviary/mission/solved_two_dof/ode/unsteady_solved_flight_conditions.py:386 -/
noncomputable def J_atmosphere_dynamic_pressure__eas (sea_level_density eas : ℝ) : ℝ :=
  eas * sea_level_density

/-- Partial of `atmosphere_mach` with respect to `eas` as set by `UnsteadySolvedFlightConditions`, aviary/mission/solved_two_dof/ode/unsteady_solved_flight_conditions.py:387 -/
noncomputable def J_atmosphere_mach__eas (sea_level_density atmosphere_density atmosphere_speed_of_sound : ℝ) : ℝ :=
  (dtas_deas sea_level_density atmosphere_density) / atmosphere_speed_of_sound

/-- Partial of `atmosphere_mach` with respect to `atmosphere_density` as set by `UnsteadySolvedFlightConditions`, aviary/mission/solved_two_dof/ode/unsteady_solved_flight_conditions.py:388 -/
noncomputable def J_atmosphere_mach__atmosphere_density (sea_level_density atmosphere_density atmosphere_speed_of_sound eas : ℝ) : ℝ :=
  (dtas_drho sea_level_density atmosphere_density eas) / atmosphere_speed_of_sound

/-- Partial of `atmosphere_mach` with respect to `atmosphere_speed_of_sound` as set by `UnsteadySolvedFlightConditions`, aviary/mission/solved_two_dof/ode/unsteady_solved_flight_conditions.py:389 -/
noncomputable def J_atmosphere_mach__atmosphere_speed_of_sound (sea_level_density atmosphere_density atmosphere_speed_of_sound eas : ℝ) : ℝ :=
  (-(tas sea_level_density atmosphere_density eas)) / (atmosphere_speed_of_sound ^ 2)

/-- Partial of `mission_velocity` with respect to `atmosphere_density` as set by `UnsteadySolvedFlightConditions`, aviary/mission/solved_two_dof/ode/unsteady_solved_flight_conditions.py:390 -/
noncomputable def J_mission_velocity__atmosphere_density (sea_level_density atmosphere_density eas : ℝ) : ℝ :=
  dtas_drho sea_level_density atmosphere_density eas

/-- Partial of `mission_velocity` with respect to `eas` as set by `UnsteadySolvedFlightConditions`, aviary/mission/solved_two_dof/ode/unsteady_solved_flight_conditions.py:391 -/
noncomputable def J_mission_velocity__eas (sea_level_density atmosphere_density : ℝ) : ℝ :=
  dtas_deas sea_level_density atmosphere_density

/-- Partial of `dtas_dt_approx` with respect to `deas_dr` as set by `UnsteadySolvedFlightConditions`, aviary/mission/solved_two_dof/ode/unsteady_solved_flight_conditions.py:392 -/
noncomputable def J_dtas_dt_approx__deas_dr (sea_level_density atmosphere_density eas : ℝ) : ℝ :=
  (tas sea_level_density atmosphere_density eas) * ((sea_level_density / atmosphere_density) ^
    ((3 / 2) : ℝ))

/-- Partial of `dtas_dt_approx` with respect to `drho_dh` as set by `UnsteadySolvedFlightConditions`, aviary/mission/solved_two_dof/ode/unsteady_solved_flight_conditions.py:393 -/
noncomputable def J_dtas_dt_approx__drho_dh (sea_level_density atmosphere_density eas : ℝ) : ℝ :=
  (((((-(1 / 2)) * eas) * (tas sea_level_density atmosphere_density eas)) * 0) *
    (sea_level_density ^ ((3 / 2) : ℝ))) / (sea_level_density ^ ((5 / 2) : ℝ))

theorem d_mission_velocity__atmosphere_density (sea_level_density atmosphere_density eas : ℝ) (h0
    : 0 < sea_level_density) (h1 : 0 < atmosphere_density) :
    HasDerivAt (fun t => out_mission_velocity sea_level_density t eas) (J_mission_velocity__atmosphere_density sea_level_density atmosphere_density eas) atmosphere_density := by
  have e0 : ∀ x : ℝ, 0 < x → x ^ ((3 / 2) : ℝ) = x ^ ((1 / 2) : ℝ) * x ^ 1 := fun x hx => rpow_up hx 1 (by norm_num)
  simp only [out_mission_velocity, J_mission_velocity__atmosphere_density, dtas_drho, tas, sqrt_rho_rho_sl, sqrt_eq_rpow]
  (apply hasDerivAt_of_eq; on_goal 1 => (repeat' comp_step))
  all_goals try comp_side
  all_goals try simp (disch := first | assumption | positivity) only [mul_rpow, div_rpow, e0, div_mul_eq_div_div, div_half, inv_half]
  all_goals try simp only [mul_zero, zero_mul, add_zero, zero_add, sub_zero, zero_sub, mul_one, one_mul]
  all_goals try push_cast
  all_goals comp_eq

theorem d_mission_velocity__eas (sea_level_density atmosphere_density eas : ℝ) (h0 : 0 <
    sea_level_density) (h1 : 0 < atmosphere_density) :
    HasDerivAt (fun t => out_mission_velocity sea_level_density atmosphere_density t) (J_mission_velocity__eas sea_level_density atmosphere_density) eas := by
  simp only [out_mission_velocity, J_mission_velocity__eas, dtas_deas, tas, sqrt_rho_rho_sl, sqrt_eq_rpow]
  (apply hasDerivAt_of_eq; on_goal 1 => (repeat' comp_step))
  all_goals try comp_side
  all_goals try simp (disch := first | assumption | positivity) only [div_mul_eq_div_div, div_half, inv_half]
  all_goals try simp only [mul_zero, zero_mul, add_zero, zero_add, sub_zero, zero_sub, mul_one, one_mul]
  all_goals try push_cast
  all_goals comp_eq

theorem d_atmosphere_mach__atmosphere_density (sea_level_density atmosphere_density
    atmosphere_speed_of_sound eas : ℝ) (h0 : 0 < sea_level_density) (h1 : 0 < atmosphere_density)
    (h2 : 0 < atmosphere_speed_of_sound) :
    HasDerivAt (fun t => out_atmosphere_mach sea_level_density t atmosphere_speed_of_sound eas) (J_atmosphere_mach__atmosphere_density sea_level_density atmosphere_density atmosphere_speed_of_sound eas) atmosphere_density := by
  have e0 : ∀ x : ℝ, 0 < x → x ^ ((3 / 2) : ℝ) = x ^ ((1 / 2) : ℝ) * x ^ 1 := fun x hx => rpow_up hx 1 (by norm_num)
  simp only [out_atmosphere_mach, J_atmosphere_mach__atmosphere_density, dtas_drho, tas, sqrt_rho_rho_sl, sqrt_eq_rpow]
  (apply hasDerivAt_of_eq; on_goal 1 => (repeat' comp_step))
  all_goals try comp_side
  all_goals try simp (disch := first | assumption | positivity) only [mul_rpow, div_rpow, e0, div_mul_eq_div_div, div_half, inv_half]
  all_goals try simp only [mul_zero, zero_mul, add_zero, zero_add, sub_zero, zero_sub, mul_one, one_mul]
  all_goals try push_cast
  all_goals comp_eq

theorem d_atmosphere_mach__atmosphere_speed_of_sound (sea_level_density atmosphere_density
    atmosphere_speed_of_sound eas : ℝ) (h0 : 0 < sea_level_density) (h1 : 0 < atmosphere_density)
    (h2 : 0 < atmosphere_speed_of_sound) :
    HasDerivAt (fun t => out_atmosphere_mach sea_level_density atmosphere_density t eas) (J_atmosphere_mach__atmosphere_speed_of_sound sea_level_density atmosphere_density atmosphere_speed_of_sound eas) atmosphere_speed_of_sound := by
  simp only [out_atmosphere_mach, J_atmosphere_mach__atmosphere_speed_of_sound, tas, sqrt_rho_rho_sl, sqrt_eq_rpow]
  (apply hasDerivAt_of_eq; on_goal 1 => (repeat' comp_step))
  all_goals try comp_side
  all_goals try simp (disch := first | assumption | positivity) only [div_mul_eq_div_div, div_half, inv_half]
  all_goals try simp only [mul_zero, zero_mul, add_zero, zero_add, sub_zero, zero_sub, mul_one, one_mul]
  all_goals try push_cast
  all_goals comp_eq

theorem d_atmosphere_mach__eas (sea_level_density atmosphere_density atmosphere_speed_of_sound eas
    : ℝ) (h0 : 0 < sea_level_density) (h1 : 0 < atmosphere_density) (h2 : 0 <
    atmosphere_speed_of_sound) :
    HasDerivAt (fun t => out_atmosphere_mach sea_level_density atmosphere_density atmosphere_speed_of_sound t) (J_atmosphere_mach__eas sea_level_density atmosphere_density atmosphere_speed_of_sound) eas := by
  simp only [out_atmosphere_mach, J_atmosphere_mach__eas, dtas_deas, tas, sqrt_rho_rho_sl, sqrt_eq_rpow]
  (apply hasDerivAt_of_eq; on_goal 1 => (repeat' comp_step))
  all_goals try comp_side
  all_goals try simp (disch := first | assumption | positivity) only [div_mul_eq_div_div, div_half, inv_half]
  all_goals try simp only [mul_zero, zero_mul, add_zero, zero_add, sub_zero, zero_sub, mul_one, one_mul]
  all_goals try push_cast
  all_goals comp_eq

theorem d_dtas_dt_approx__drho_dh (sea_level_density atmosphere_density eas drho_dh deas_dr : ℝ)
    (h0 : 0 < sea_level_density) (h1 : 0 < atmosphere_density) :
    HasDerivAt (fun t => out_dtas_dt_approx sea_level_density atmosphere_density eas t deas_dr) (J_dtas_dt_approx__drho_dh sea_level_density atmosphere_density eas) drho_dh := by
  have e0 : ∀ x : ℝ, 0 < x → x ^ ((3 / 2) : ℝ) = x ^ ((1 / 2) : ℝ) * x ^ 1 := fun x hx => rpow_up hx 1 (by norm_num)
  have e1 : ∀ x : ℝ, 0 < x → x ^ ((5 / 2) : ℝ) = x ^ ((1 / 2) : ℝ) * x ^ 2 := fun x hx => rpow_up hx 2 (by norm_num)
  simp only [out_dtas_dt_approx, J_dtas_dt_approx__drho_dh, drho_dt_approx, deas_dt_approx, tas, sqrt_rho_rho_sl, sqrt_eq_rpow]
  (apply hasDerivAt_of_eq; on_goal 1 => (repeat' comp_step))
  all_goals try comp_side
  all_goals try simp (disch := first | assumption | positivity) only [e0, e1, div_mul_eq_div_div, div_half, inv_half]
  all_goals try simp only [mul_zero, zero_mul, add_zero, zero_add, sub_zero, zero_sub, mul_one, one_mul]
  all_goals try push_cast
  all_goals comp_eq

theorem d_dtas_dt_approx__deas_dr (sea_level_density atmosphere_density eas drho_dh deas_dr : ℝ)
    (h0 : 0 < sea_level_density) (h1 : 0 < atmosphere_density) :
    HasDerivAt (fun t => out_dtas_dt_approx sea_level_density atmosphere_density eas drho_dh t) (J_dtas_dt_approx__deas_dr sea_level_density atmosphere_density eas) deas_dr := by
  have e0 : ∀ x : ℝ, 0 < x → x ^ ((3 / 2) : ℝ) = x ^ ((1 / 2) : ℝ) * x ^ 1 := fun x hx => rpow_up hx 1 (by norm_num)
  have e1 : ∀ x : ℝ, 0 < x → x ^ ((5 / 2) : ℝ) = x ^ ((1 / 2) : ℝ) * x ^ 2 := fun x hx => rpow_up hx 2 (by norm_num)
  simp only [out_dtas_dt_approx, J_dtas_dt_approx__deas_dr, drho_dt_approx, deas_dt_approx, tas, sqrt_rho_rho_sl, sqrt_eq_rpow]
  (apply hasDerivAt_of_eq; on_goal 1 => (repeat' comp_step))
  all_goals try comp_side
  all_goals try simp (disch := first | assumption | positivity) only [e0, e1, div_mul_eq_div_div, div_half, inv_half]
  all_goals try simp only [mul_zero, zero_mul, add_zero, zero_add, sub_zero, zero_sub, mul_one, one_mul]
  all_goals try push_cast
  all_goals comp_eq

theorem d_atmosphere_dynamic_pressure__eas (sea_level_density atmosphere_density eas : ℝ) (h0 : 0
    < sea_level_density) (h1 : 0 < atmosphere_density) :
    HasDerivAt (fun t => out_atmosphere_dynamic_pressure sea_level_density atmosphere_density t) (J_atmosphere_dynamic_pressure__eas sea_level_density eas) eas := by
  simp only [out_atmosphere_dynamic_pressure, J_atmosphere_dynamic_pressure__eas, tas, sqrt_rho_rho_sl, sqrt_eq_rpow]
  (apply hasDerivAt_of_eq; on_goal 1 => (repeat' comp_step))
  all_goals try comp_side
  all_goals try simp (disch := first | assumption | positivity) only [mul_rpow, div_rpow, div_mul_eq_div_div, div_half, inv_half]
  all_goals try simp only [mul_zero, zero_mul, add_zero, zero_add, sub_zero, zero_sub, mul_one, one_mul]
  all_goals try push_cast
  all_goals comp_eq

/-- Partial derivatives of `UnsteadySolvedFlightConditions` that are proved correct (the rest is listed in the header). -/
theorem partials_partial (sea_level_density atmosphere_density atmosphere_speed_of_sound eas
    drho_dh deas_dr : ℝ) (h0 : 0 < sea_level_density) (h1 : 0 < atmosphere_density) (h2 : 0 <
    atmosphere_speed_of_sound) :
    HasDerivAt (fun t => out_mission_velocity sea_level_density t eas)
      (J_mission_velocity__atmosphere_density sea_level_density atmosphere_density eas)
      atmosphere_density ∧
    HasDerivAt (fun t => out_mission_velocity sea_level_density atmosphere_density t)
      (J_mission_velocity__eas sea_level_density atmosphere_density) eas ∧
    HasDerivAt (fun t => out_atmosphere_mach sea_level_density t atmosphere_speed_of_sound eas)
      (J_atmosphere_mach__atmosphere_density sea_level_density atmosphere_density
      atmosphere_speed_of_sound eas) atmosphere_density ∧
    HasDerivAt (fun t => out_atmosphere_mach sea_level_density atmosphere_density t eas)
      (J_atmosphere_mach__atmosphere_speed_of_sound sea_level_density atmosphere_density
      atmosphere_speed_of_sound eas) atmosphere_speed_of_sound ∧
    HasDerivAt (fun t => out_atmosphere_mach sea_level_density atmosphere_density
      atmosphere_speed_of_sound t) (J_atmosphere_mach__eas sea_level_density atmosphere_density
      atmosphere_speed_of_sound) eas ∧
    HasDerivAt (fun t => out_dtas_dt_approx sea_level_density atmosphere_density eas t deas_dr)
      (J_dtas_dt_approx__drho_dh sea_level_density atmosphere_density eas) drho_dh ∧
    HasDerivAt (fun t => out_dtas_dt_approx sea_level_density atmosphere_density eas drho_dh t)
      (J_dtas_dt_approx__deas_dr sea_level_density atmosphere_density eas) deas_dr ∧
    HasDerivAt (fun t => out_atmosphere_dynamic_pressure sea_level_density atmosphere_density t)
      (J_atmosphere_dynamic_pressure__eas sea_level_density eas) eas :=
  ⟨d_mission_velocity__atmosphere_density _ _ _ h0 h1, d_mission_velocity__eas _ _ _ h0 h1,
    d_atmosphere_mach__atmosphere_density _ _ _ _ h0 h1 h2,
    d_atmosphere_mach__atmosphere_speed_of_sound _ _ _ _ h0 h1 h2, d_atmosphere_mach__eas _ _ _ _
    h0 h1 h2, d_dtas_dt_approx__drho_dh _ _ _ _ _ h0 h1, d_dtas_dt_approx__deas_dr _ _ _ _ _ h0
    h1, d_atmosphere_dynamic_pressure__eas _ _ _ h0 h1⟩

example : ∃ sea_level_density atmosphere_density atmosphere_speed_of_sound eas drho_dh deas_dr :
      ℝ,
      0 < sea_level_density ∧
      0 < atmosphere_density ∧
      0 < atmosphere_speed_of_sound :=
  ⟨1, 1, 1, 0, 0, 0, by comp_example, by comp_example, by comp_example⟩

/-- The derivative of output `dtas_dt_approx` with respect to `atmosphere_density`. -/
noncomputable def D_dtas_dt_approx__atmosphere_density (sea_level_density atmosphere_density eas drho_dh deas_dr : ℝ) : ℝ :=
  (((deas_dr * (-((eas * ((1 / sea_level_density) / (2 * (sqrt (atmosphere_density /
    sea_level_density))))) / ((sqrt_rho_rho_sl sea_level_density atmosphere_density) ^ 2)))) *
    ((sea_level_density / atmosphere_density) ^ ((3 / 2) : ℝ))) + ((deas_dt_approx
    sea_level_density atmosphere_density eas deas_dr) * (((3 / 2) * ((sea_level_density /
    atmosphere_density) ^ ((1 / 2) : ℝ))) * (-(sea_level_density / (atmosphere_density ^ 2))))))
    - (((((1 / 2) * eas) * ((drho_dh * (-((eas * ((1 / sea_level_density) / (2 * (sqrt
    (atmosphere_density / sea_level_density))))) / ((sqrt_rho_rho_sl sea_level_density
    atmosphere_density) ^ 2)))) * 0)) * (sea_level_density ^ ((3 / 2) : ℝ))) /
    (sea_level_density ^ ((5 / 2) : ℝ)))

theorem true_d_dtas_dt_approx__atmosphere_density (sea_level_density atmosphere_density eas
    drho_dh deas_dr : ℝ) (h0 : 0 < sea_level_density) (h1 : 0 < atmosphere_density) :
    HasDerivAt (fun t => out_dtas_dt_approx sea_level_density t eas drho_dh deas_dr)
      (D_dtas_dt_approx__atmosphere_density sea_level_density atmosphere_density eas drho_dh
      deas_dr) atmosphere_density := by
  have e0 : ∀ x : ℝ, 0 < x → x ^ ((3 / 2) : ℝ) = x ^ ((1 / 2) : ℝ) * x ^ 1 := fun x hx => rpow_up hx 1 (by norm_num)
  have e1 : ∀ x : ℝ, 0 < x → x ^ ((5 / 2) : ℝ) = x ^ ((1 / 2) : ℝ) * x ^ 2 := fun x hx => rpow_up hx 2 (by norm_num)
  simp only [out_dtas_dt_approx, D_dtas_dt_approx__atmosphere_density, drho_dt_approx, deas_dt_approx, tas, sqrt_rho_rho_sl, sqrt_eq_rpow]
  (apply hasDerivAt_of_eq; on_goal 1 => (repeat' comp_step))
  all_goals try comp_side
  all_goals try simp (disch := first | assumption | positivity) only [e0, e1, div_mul_eq_div_div, div_half, inv_half]
  all_goals try simp only [mul_zero, zero_mul, add_zero, zero_add, sub_zero, zero_sub, mul_one, one_mul]
  all_goals try push_cast
  all_goals comp_eq

/-- No entry is set for `dtas_dt_approx` by `atmosphere_density` (so it is zero), but the derivative does not vanish. -/
theorem J_dtas_dt_approx__atmosphere_density_violated : ∃ sea_level_density atmosphere_density eas
      drho_dh deas_dr : ℝ,
      0 < sea_level_density ∧
      0 < atmosphere_density ∧
      ¬ HasDerivAt (fun t => out_dtas_dt_approx sea_level_density t eas drho_dh deas_dr) 0
        atmosphere_density := by
  refine ⟨1, 1, 1, 1, 1, by comp_example, by comp_example, fun h => ?_⟩
  have e := h.unique (true_d_dtas_dt_approx__atmosphere_density (1) (1) (1) (1) (1) (by
    comp_example) (by comp_example))
  norm_num [D_dtas_dt_approx__atmosphere_density, deas_dt_approx, tas, sqrt_rho_rho_sl] at e

/-- The derivative of output `dtas_dt_approx` with respect to `eas`. -/
noncomputable def D_dtas_dt_approx__eas (sea_level_density atmosphere_density eas drho_dh deas_dr : ℝ) : ℝ :=
  ((deas_dr * (1 / (sqrt_rho_rho_sl sea_level_density atmosphere_density))) *
    ((sea_level_density / atmosphere_density) ^ ((3 / 2) : ℝ))) - (((((1 / 2) * (drho_dt_approx
    sea_level_density atmosphere_density eas drho_dh)) + (((1 / 2) * eas) * ((drho_dh * (1 /
    (sqrt_rho_rho_sl sea_level_density atmosphere_density))) * 0))) * (sea_level_density ^ ((3 /
    2) : ℝ))) / (sea_level_density ^ ((5 / 2) : ℝ)))

theorem true_d_dtas_dt_approx__eas (sea_level_density atmosphere_density eas drho_dh deas_dr : ℝ)
    (h0 : 0 < sea_level_density) (h1 : 0 < atmosphere_density) :
    HasDerivAt (fun t => out_dtas_dt_approx sea_level_density atmosphere_density t drho_dh
      deas_dr) (D_dtas_dt_approx__eas sea_level_density atmosphere_density eas drho_dh deas_dr)
      eas := by
  have e0 : ∀ x : ℝ, 0 < x → x ^ ((3 / 2) : ℝ) = x ^ ((1 / 2) : ℝ) * x ^ 1 := fun x hx => rpow_up hx 1 (by norm_num)
  have e1 : ∀ x : ℝ, 0 < x → x ^ ((5 / 2) : ℝ) = x ^ ((1 / 2) : ℝ) * x ^ 2 := fun x hx => rpow_up hx 2 (by norm_num)
  simp only [out_dtas_dt_approx, D_dtas_dt_approx__eas, drho_dt_approx, deas_dt_approx, tas, sqrt_rho_rho_sl, sqrt_eq_rpow]
  (apply hasDerivAt_of_eq; on_goal 1 => (repeat' comp_step))
  all_goals try comp_side
  all_goals try simp (disch := first | assumption | positivity) only [e0, e1, div_mul_eq_div_div, div_half, inv_half]
  all_goals try simp only [mul_zero, zero_mul, add_zero, zero_add, sub_zero, zero_sub, mul_one, one_mul]
  all_goals try push_cast
  all_goals comp_eq

/-- No entry is set for `dtas_dt_approx` by `eas` (so it is zero), but the derivative does not vanish. -/
theorem J_dtas_dt_approx__eas_violated : ∃ sea_level_density atmosphere_density eas drho_dh
      deas_dr : ℝ,
      0 < sea_level_density ∧
      0 < atmosphere_density ∧
      ¬ HasDerivAt (fun t => out_dtas_dt_approx sea_level_density atmosphere_density t drho_dh deas_dr)
        0 eas := by
  refine ⟨1, 1, 1, 1, 1, by comp_example, by comp_example, fun h => ?_⟩
  have e := h.unique (true_d_dtas_dt_approx__eas (1) (1) (1) (1) (1) (by comp_example) (by
    comp_example))
  norm_num [D_dtas_dt_approx__eas, drho_dt_approx, tas, sqrt_rho_rho_sl] at e

end Verif.Comp.MissionSolvedTwoDofOdeUnsteadySolvedFlightConditions.UnsteadySolvedFlightConditions_groundroll_eas

namespace Verif.Comp.MissionSolvedTwoDofOdeUnsteadySolvedFlightConditions.UnsteadySolvedFlightConditions_groundroll_otherinputspeedtype
open Real

/-- aviary/mission/solved_two_dof/ode/unsteady_solved_flight_conditions.py:306 -/
noncomputable def sqrt_rho_rho_sl (sea_level_density atmosphere_density : ℝ) : ℝ :=
  sqrt (atmosphere_density / sea_level_density)

/-- aviary/mission/solved_two_dof/ode/unsteady_solved_flight_conditions.py:335 -/
noncomputable def tas (atmosphere_speed_of_sound atmosphere_mach : ℝ) : ℝ :=
  atmosphere_speed_of_sound * atmosphere_mach

/-- aviary/mission/solved_two_dof/ode/unsteady_solved_flight_conditions.py:337 -/
noncomputable def dmach_dt_approx (atmosphere_speed_of_sound atmosphere_mach dmach_dr : ℝ) : ℝ :=
  dmach_dr * (tas atmosphere_speed_of_sound atmosphere_mach)

/-- aviary/mission/solved_two_dof/ode/unsteady_solved_flight_conditions.py:338 -/
noncomputable def dsos_dt_approx (atmosphere_speed_of_sound atmosphere_mach dsos_dh : ℝ) : ℝ :=
  (dsos_dh * (tas atmosphere_speed_of_sound atmosphere_mach)) * 0

/-- Output `mission_velocity` of `UnsteadySolvedFlightConditions.compute`, aviary/mission/solved_two_dof/ode/unsteady_solved_flight_conditions.py:335 -/
noncomputable def out_mission_velocity (atmosphere_speed_of_sound atmosphere_mach : ℝ) : ℝ :=
  tas atmosphere_speed_of_sound atmosphere_mach

/-- Output `eas` of `UnsteadySolvedFlightConditions.compute`, aviary/mission/solved_two_dof/ode/unsteady_solved_flight_conditions.py:336 -/
noncomputable def out_eas (sea_level_density atmosphere_density atmosphere_speed_of_sound atmosphere_mach : ℝ) : ℝ :=
  (tas atmosphere_speed_of_sound atmosphere_mach) * (sqrt_rho_rho_sl sea_level_density
    atmosphere_density)

/-- Output `dtas_dt_approx` of `UnsteadySolvedFlightConditions.compute`, aviary/mission/solved_two_dof/ode/unsteady_solved_flight_conditions.py:339 -/
noncomputable def out_dtas_dt_approx (atmosphere_speed_of_sound atmosphere_mach dmach_dr dsos_dh : ℝ) : ℝ :=
  ((dmach_dt_approx atmosphere_speed_of_sound atmosphere_mach dmach_dr) *
    atmosphere_speed_of_sound) + (((dsos_dt_approx atmosphere_speed_of_sound atmosphere_mach
    dsos_dh) * (tas atmosphere_speed_of_sound atmosphere_mach)) / atmosphere_speed_of_sound)

/-- Output `atmosphere_dynamic_pressure` of `UnsteadySolvedFlightConditions.compute`, aviary/mission/solved_two_dof/ode/unsteady_solved_flight_conditions.py:341 -/
noncomputable def out_atmosphere_dynamic_pressure (atmosphere_density atmosphere_speed_of_sound atmosphere_mach : ℝ) : ℝ :=
  ((1 / 2) * atmosphere_density) * ((tas atmosphere_speed_of_sound atmosphere_mach) ^ 2)

/-- Partial of `atmosphere_dynamic_pressure` with respect to `atmosphere_speed_of_sound` as set by `UnsteadySolvedFlightConditions`, aviary/mission/solved_two_dof/ode/unsteady_solved_flight_conditions.py:407 -/
noncomputable def J_atmosphere_dynamic_pressure__atmosphere_speed_of_sound (atmosphere_density atmosphere_speed_of_sound atmosphere_mach : ℝ) : ℝ :=
  (atmosphere_density * atmosphere_speed_of_sound) * (atmosphere_mach ^ 2)

/-- Partial of `atmosphere_dynamic_pressure` with respect to `atmosphere_mach` as set by `UnsteadySolvedFlightConditions`, aviary/mission/solved_two_dof/ode/unsteady_solved_flight_conditions.py:410 -/
noncomputable def J_atmosphere_dynamic_pressure__atmosphere_mach (atmosphere_density atmosphere_speed_of_sound atmosphere_mach : ℝ) : ℝ :=
  (atmosphere_density * (atmosphere_speed_of_sound ^ 2)) * atmosphere_mach

/-- Partial of `atmosphere_dynamic_pressure` with respect to `atmosphere_density` as set by `UnsteadySolvedFlightConditions`, aviary/mission/solved_two_dof/ode/unsteady_solved_flight_conditions.py:413 -/
noncomputable def J_atmosphere_dynamic_pressure__atmosphere_density (atmosphere_speed_of_sound atmosphere_mach : ℝ) : ℝ :=
  ((1 / 2) * (atmosphere_speed_of_sound ^ 2)) * (atmosphere_mach ^ 2)

/-- Partial of `mission_velocity` with respect to `atmosphere_speed_of_sound` as set by `UnsteadySolvedFlightConditions`, aviary/mission/solved_two_dof/ode/unsteady_solved_flight_conditions.py:416 -/
noncomputable def J_mission_velocity__atmosphere_speed_of_sound (atmosphere_mach : ℝ) : ℝ :=
  atmosphere_mach

/-- Partial of `mission_velocity` with respect to `atmosphere_mach` as set by `UnsteadySolvedFlightConditions`, aviary/mission/solved_two_dof/ode/unsteady_solved_flight_conditions.py:417 -/
noncomputable def J_mission_velocity__atmosphere_mach (atmosphere_speed_of_sound : ℝ) : ℝ :=
  atmosphere_speed_of_sound

/-- Partial of `eas` with respect to `atmosphere_speed_of_sound` as set by `UnsteadySolvedFlightConditions`, aviary/mission/solved_two_dof/ode/unsteady_solved_flight_conditions.py:418 -/
noncomputable def J_eas__atmosphere_speed_of_sound (sea_level_density atmosphere_density atmosphere_mach : ℝ) : ℝ :=
  atmosphere_mach * (sqrt_rho_rho_sl sea_level_density atmosphere_density)

/-- Partial of `eas` with respect to `atmosphere_mach` as set by `UnsteadySolvedFlightConditions`, aviary/mission/solved_two_dof/ode/unsteady_solved_flight_conditions.py:419 -/
noncomputable def J_eas__atmosphere_mach (sea_level_density atmosphere_density atmosphere_speed_of_sound : ℝ) : ℝ :=
  atmosphere_speed_of_sound * (sqrt_rho_rho_sl sea_level_density atmosphere_density)

/-- Partial of `eas` with respect to `atmosphere_density` as set by `UnsteadySolvedFlightConditions`, aviary/mission/solved_two_dof/ode/unsteady_solved_flight_conditions.py:420 -/
noncomputable def J_eas__atmosphere_density (sea_level_density atmosphere_density atmosphere_speed_of_sound atmosphere_mach : ℝ) : ℝ :=
  (((tas atmosphere_speed_of_sound atmosphere_mach) * ((1 / sea_level_density) ^ ((1 / 2) : ℝ)))
    * (1 / 2)) * (atmosphere_density ^ ((-(1 / 2)) : ℝ))

/-- Partial of `dtas_dt_approx` with respect to `dmach_dr` as set by `UnsteadySolvedFlightConditions`, aviary/mission/solved_two_dof/ode/unsteady_solved_flight_conditions.py:423 -/
noncomputable def J_dtas_dt_approx__dmach_dr (atmosphere_speed_of_sound atmosphere_mach : ℝ) : ℝ :=
  (tas atmosphere_speed_of_sound atmosphere_mach) * atmosphere_speed_of_sound

/-- Partial of `dtas_dt_approx` with respect to `dsos_dh` as set by `UnsteadySolvedFlightConditions`, aviary/mission/solved_two_dof/ode/unsteady_solved_flight_conditions.py:424 -/
noncomputable def J_dtas_dt_approx__dsos_dh (atmosphere_speed_of_sound atmosphere_mach : ℝ) : ℝ :=
  (((tas atmosphere_speed_of_sound atmosphere_mach) ^ 2) * 0) / atmosphere_speed_of_sound

theorem d_mission_velocity__atmosphere_speed_of_sound (atmosphere_speed_of_sound atmosphere_mach :
    ℝ)  :
    HasDerivAt (fun t => out_mission_velocity t atmosphere_mach) (J_mission_velocity__atmosphere_speed_of_sound atmosphere_mach) atmosphere_speed_of_sound := by
  simp only [out_mission_velocity, J_mission_velocity__atmosphere_speed_of_sound, tas]
  (apply hasDerivAt_of_eq; on_goal 1 => (repeat' comp_step))
  all_goals try comp_side
  all_goals try simp only [mul_zero, zero_mul, add_zero, zero_add, sub_zero, zero_sub, mul_one, one_mul]
  all_goals try push_cast
  all_goals comp_eq

theorem d_mission_velocity__atmosphere_mach (atmosphere_speed_of_sound atmosphere_mach : ℝ)  :
    HasDerivAt (fun t => out_mission_velocity atmosphere_speed_of_sound t) (J_mission_velocity__atmosphere_mach atmosphere_speed_of_sound) atmosphere_mach := by
  simp only [out_mission_velocity, J_mission_velocity__atmosphere_mach, tas]
  (apply hasDerivAt_of_eq; on_goal 1 => (repeat' comp_step))
  all_goals try comp_side
  all_goals try simp only [mul_zero, zero_mul, add_zero, zero_add, sub_zero, zero_sub, mul_one, one_mul]
  all_goals try push_cast
  all_goals comp_eq

theorem d_eas__atmosphere_density (sea_level_density atmosphere_density atmosphere_speed_of_sound
    atmosphere_mach : ℝ) (h0 : 0 < sea_level_density) (h1 : 0 < atmosphere_density) :
    HasDerivAt (fun t => out_eas sea_level_density t atmosphere_speed_of_sound atmosphere_mach) (J_eas__atmosphere_density sea_level_density atmosphere_density atmosphere_speed_of_sound atmosphere_mach) atmosphere_density := by
  have e0 : ∀ x : ℝ, 0 < x → x ^ ((-(1 / 2)) : ℝ) = x ^ ((1 / 2) : ℝ) / x ^ 1 := fun x hx => rpow_down hx 1 (by norm_num)
  simp only [out_eas, J_eas__atmosphere_density, sqrt_rho_rho_sl, tas, sqrt_eq_rpow]
  (apply hasDerivAt_of_eq; on_goal 1 => (repeat' comp_step))
  all_goals try comp_side
  all_goals try simp (disch := first | assumption | positivity) only [mul_rpow, div_rpow, e0, div_mul_eq_div_div, div_half, inv_half]
  all_goals try simp only [mul_zero, zero_mul, add_zero, zero_add, sub_zero, zero_sub, mul_one, one_mul]
  all_goals try push_cast
  all_goals comp_eq

theorem d_eas__atmosphere_speed_of_sound (sea_level_density atmosphere_density
    atmosphere_speed_of_sound atmosphere_mach : ℝ) (h0 : 0 < sea_level_density) (h1 : 0 <
    atmosphere_density) :
    HasDerivAt (fun t => out_eas sea_level_density atmosphere_density t atmosphere_mach) (J_eas__atmosphere_speed_of_sound sea_level_density atmosphere_density atmosphere_mach) atmosphere_speed_of_sound := by
  simp only [out_eas, J_eas__atmosphere_speed_of_sound, sqrt_rho_rho_sl, tas, sqrt_eq_rpow]
  (apply hasDerivAt_of_eq; on_goal 1 => (repeat' comp_step))
  all_goals try comp_side
  all_goals try simp (disch := first | assumption | positivity) only [div_mul_eq_div_div, div_half, inv_half]
  all_goals try simp only [mul_zero, zero_mul, add_zero, zero_add, sub_zero, zero_sub, mul_one, one_mul]
  all_goals try push_cast
  all_goals comp_eq

theorem d_eas__atmosphere_mach (sea_level_density atmosphere_density atmosphere_speed_of_sound
    atmosphere_mach : ℝ) (h0 : 0 < sea_level_density) (h1 : 0 < atmosphere_density) :
    HasDerivAt (fun t => out_eas sea_level_density atmosphere_density atmosphere_speed_of_sound t) (J_eas__atmosphere_mach sea_level_density atmosphere_density atmosphere_speed_of_sound) atmosphere_mach := by
  simp only [out_eas, J_eas__atmosphere_mach, sqrt_rho_rho_sl, tas, sqrt_eq_rpow]
  (apply hasDerivAt_of_eq; on_goal 1 => (repeat' comp_step))
  all_goals try comp_side
  all_goals try simp (disch := first | assumption | positivity) only [div_mul_eq_div_div, div_half, inv_half]
  all_goals try simp only [mul_zero, zero_mul, add_zero, zero_add, sub_zero, zero_sub, mul_one, one_mul]
  all_goals try push_cast
  all_goals comp_eq

theorem d_dtas_dt_approx__dmach_dr (atmosphere_speed_of_sound atmosphere_mach dmach_dr dsos_dh :
    ℝ) (h0 : 0 < atmosphere_speed_of_sound) :
    HasDerivAt (fun t => out_dtas_dt_approx atmosphere_speed_of_sound atmosphere_mach t dsos_dh) (J_dtas_dt_approx__dmach_dr atmosphere_speed_of_sound atmosphere_mach) dmach_dr := by
  simp only [out_dtas_dt_approx, J_dtas_dt_approx__dmach_dr, dsos_dt_approx, dmach_dt_approx, tas]
  (apply hasDerivAt_of_eq; on_goal 1 => (repeat' comp_step))
  all_goals try comp_side
  all_goals try simp only [mul_zero, zero_mul, add_zero, zero_add, sub_zero, zero_sub, mul_one, one_mul]
  all_goals try push_cast
  all_goals comp_eq

theorem d_dtas_dt_approx__dsos_dh (atmosphere_speed_of_sound atmosphere_mach dmach_dr dsos_dh : ℝ)
    (h0 : 0 < atmosphere_speed_of_sound) :
    HasDerivAt (fun t => out_dtas_dt_approx atmosphere_speed_of_sound atmosphere_mach dmach_dr t) (J_dtas_dt_approx__dsos_dh atmosphere_speed_of_sound atmosphere_mach) dsos_dh := by
  simp only [out_dtas_dt_approx, J_dtas_dt_approx__dsos_dh, dsos_dt_approx, dmach_dt_approx, tas]
  (apply hasDerivAt_of_eq; on_goal 1 => (repeat' comp_step))
  all_goals try comp_side
  all_goals try simp only [mul_zero, zero_mul, add_zero, zero_add, sub_zero, zero_sub, mul_one, one_mul]
  all_goals try push_cast
  all_goals comp_eq

theorem d_atmosphere_dynamic_pressure__atmosphere_density (atmosphere_density
    atmosphere_speed_of_sound atmosphere_mach : ℝ)  :
    HasDerivAt (fun t => out_atmosphere_dynamic_pressure t atmosphere_speed_of_sound atmosphere_mach) (J_atmosphere_dynamic_pressure__atmosphere_density atmosphere_speed_of_sound atmosphere_mach) atmosphere_density := by
  simp only [out_atmosphere_dynamic_pressure, J_atmosphere_dynamic_pressure__atmosphere_density, tas]
  (apply hasDerivAt_of_eq; on_goal 1 => (repeat' comp_step))
  all_goals try comp_side
  all_goals try simp only [mul_zero, zero_mul, add_zero, zero_add, sub_zero, zero_sub, mul_one, one_mul]
  all_goals try push_cast
  all_goals comp_eq

theorem d_atmosphere_dynamic_pressure__atmosphere_speed_of_sound (atmosphere_density
    atmosphere_speed_of_sound atmosphere_mach : ℝ)  :
    HasDerivAt (fun t => out_atmosphere_dynamic_pressure atmosphere_density t atmosphere_mach) (J_atmosphere_dynamic_pressure__atmosphere_speed_of_sound atmosphere_density atmosphere_speed_of_sound atmosphere_mach) atmosphere_speed_of_sound := by
  simp only [out_atmosphere_dynamic_pressure, J_atmosphere_dynamic_pressure__atmosphere_speed_of_sound, tas]
  (apply hasDerivAt_of_eq; on_goal 1 => (repeat' comp_step))
  all_goals try comp_side
  all_goals try simp only [mul_zero, zero_mul, add_zero, zero_add, sub_zero, zero_sub, mul_one, one_mul]
  all_goals try push_cast
  all_goals comp_eq

theorem d_atmosphere_dynamic_pressure__atmosphere_mach (atmosphere_density
    atmosphere_speed_of_sound atmosphere_mach : ℝ)  :
    HasDerivAt (fun t => out_atmosphere_dynamic_pressure atmosphere_density atmosphere_speed_of_sound t) (J_atmosphere_dynamic_pressure__atmosphere_mach atmosphere_density atmosphere_speed_of_sound atmosphere_mach) atmosphere_mach := by
  simp only [out_atmosphere_dynamic_pressure, J_atmosphere_dynamic_pressure__atmosphere_mach, tas]
  (apply hasDerivAt_of_eq; on_goal 1 => (repeat' comp_step))
  all_goals try comp_side
  all_goals try simp only [mul_zero, zero_mul, add_zero, zero_add, sub_zero, zero_sub, mul_one, one_mul]
  all_goals try push_cast
  all_goals comp_eq

/-- Partial derivatives of `UnsteadySolvedFlightConditions` that are proved correct (the rest is listed in the header). -/
theorem partials_partial (sea_level_density atmosphere_density atmosphere_speed_of_sound
    atmosphere_mach dmach_dr dsos_dh : ℝ) (h0 : 0 < sea_level_density) (h1 : 0 <
    atmosphere_density) (h2 : 0 < atmosphere_speed_of_sound) :
    HasDerivAt (fun t => out_mission_velocity t atmosphere_mach)
      (J_mission_velocity__atmosphere_speed_of_sound atmosphere_mach) atmosphere_speed_of_sound ∧
    HasDerivAt (fun t => out_mission_velocity atmosphere_speed_of_sound t)
      (J_mission_velocity__atmosphere_mach atmosphere_speed_of_sound) atmosphere_mach ∧
    HasDerivAt (fun t => out_eas sea_level_density t atmosphere_speed_of_sound atmosphere_mach)
      (J_eas__atmosphere_density sea_level_density atmosphere_density atmosphere_speed_of_sound
      atmosphere_mach) atmosphere_density ∧
    HasDerivAt (fun t => out_eas sea_level_density atmosphere_density t atmosphere_mach)
      (J_eas__atmosphere_speed_of_sound sea_level_density atmosphere_density atmosphere_mach)
      atmosphere_speed_of_sound ∧
    HasDerivAt (fun t => out_eas sea_level_density atmosphere_density atmosphere_speed_of_sound t)
      (J_eas__atmosphere_mach sea_level_density atmosphere_density atmosphere_speed_of_sound)
      atmosphere_mach ∧
    HasDerivAt (fun t => out_dtas_dt_approx atmosphere_speed_of_sound atmosphere_mach t dsos_dh)
      (J_dtas_dt_approx__dmach_dr atmosphere_speed_of_sound atmosphere_mach) dmach_dr ∧
    HasDerivAt (fun t => out_dtas_dt_approx atmosphere_speed_of_sound atmosphere_mach dmach_dr t)
      (J_dtas_dt_approx__dsos_dh atmosphere_speed_of_sound atmosphere_mach) dsos_dh ∧
    HasDerivAt (fun t => out_atmosphere_dynamic_pressure t atmosphere_speed_of_sound atmosphere_mach)
      (J_atmosphere_dynamic_pressure__atmosphere_density atmosphere_speed_of_sound
      atmosphere_mach) atmosphere_density ∧
    HasDerivAt (fun t => out_atmosphere_dynamic_pressure atmosphere_density t atmosphere_mach)
      (J_atmosphere_dynamic_pressure__atmosphere_speed_of_sound atmosphere_density
      atmosphere_speed_of_sound atmosphere_mach) atmosphere_speed_of_sound ∧
    HasDerivAt (fun t => out_atmosphere_dynamic_pressure atmosphere_density atmosphere_speed_of_sound
      t) (J_atmosphere_dynamic_pressure__atmosphere_mach atmosphere_density
      atmosphere_speed_of_sound atmosphere_mach) atmosphere_mach :=
  ⟨d_mission_velocity__atmosphere_speed_of_sound _ _, d_mission_velocity__atmosphere_mach _ _,
    d_eas__atmosphere_density _ _ _ _ h0 h1, d_eas__atmosphere_speed_of_sound _ _ _ _ h0 h1,
    d_eas__atmosphere_mach _ _ _ _ h0 h1, d_dtas_dt_approx__dmach_dr _ _ _ _ h2,
    d_dtas_dt_approx__dsos_dh _ _ _ _ h2, d_atmosphere_dynamic_pressure__atmosphere_density _ _ _,
    d_atmosphere_dynamic_pressure__atmosphere_speed_of_sound _ _ _,
    d_atmosphere_dynamic_pressure__atmosphere_mach _ _ _⟩

example : ∃ sea_level_density atmosphere_density atmosphere_speed_of_sound atmosphere_mach
      dmach_dr dsos_dh : ℝ,
      0 < sea_level_density ∧
      0 < atmosphere_density ∧
      0 < atmosphere_speed_of_sound :=
  ⟨1, 1, 1, 0, 0, 0, by comp_example, by comp_example, by comp_example⟩

/-- The derivative of output `dtas_dt_approx` with respect to `atmosphere_mach`. -/
noncomputable def D_dtas_dt_approx__atmosphere_mach (atmosphere_speed_of_sound atmosphere_mach dmach_dr dsos_dh : ℝ) : ℝ :=
  ((dmach_dr * atmosphere_speed_of_sound) * atmosphere_speed_of_sound) + (((((dsos_dh *
    atmosphere_speed_of_sound) * 0) * (tas atmosphere_speed_of_sound atmosphere_mach)) +
    ((dsos_dt_approx atmosphere_speed_of_sound atmosphere_mach dsos_dh) *
    atmosphere_speed_of_sound)) / atmosphere_speed_of_sound)

theorem true_d_dtas_dt_approx__atmosphere_mach (atmosphere_speed_of_sound atmosphere_mach dmach_dr
    dsos_dh : ℝ) (h0 : 0 < atmosphere_speed_of_sound) :
    HasDerivAt (fun t => out_dtas_dt_approx atmosphere_speed_of_sound t dmach_dr dsos_dh)
      (D_dtas_dt_approx__atmosphere_mach atmosphere_speed_of_sound atmosphere_mach dmach_dr
      dsos_dh) atmosphere_mach := by
  simp only [out_dtas_dt_approx, D_dtas_dt_approx__atmosphere_mach, dsos_dt_approx, dmach_dt_approx, tas]
  (apply hasDerivAt_of_eq; on_goal 1 => (repeat' comp_step))
  all_goals try comp_side
  all_goals try simp only [mul_zero, zero_mul, add_zero, zero_add, sub_zero, zero_sub, mul_one, one_mul]
  all_goals try push_cast
  all_goals comp_eq

/-- No entry is set for `dtas_dt_approx` by `atmosphere_mach` (so it is zero), but the derivative does not vanish. -/
theorem J_dtas_dt_approx__atmosphere_mach_violated : ∃ atmosphere_speed_of_sound atmosphere_mach
      dmach_dr dsos_dh : ℝ,
      0 < atmosphere_speed_of_sound ∧
      ¬ HasDerivAt (fun t => out_dtas_dt_approx atmosphere_speed_of_sound t dmach_dr dsos_dh) 0
        atmosphere_mach := by
  refine ⟨1, 1, 1, 1, by comp_example, fun h => ?_⟩
  have e := h.unique (true_d_dtas_dt_approx__atmosphere_mach (1) (1) (1) (1) (by comp_example))
  norm_num [D_dtas_dt_approx__atmosphere_mach, dsos_dt_approx, tas] at e

end Verif.Comp.MissionSolvedTwoDofOdeUnsteadySolvedFlightConditions.UnsteadySolvedFlightConditions_groundroll_otherinputspeedtype

namespace Verif.Comp.MissionSolvedTwoDofOdeUnsteadySolvedFlightConditions.UnsteadySolvedFlightConditions_no_groundroll_tas
open Real

/-- aviary/mission/solved_two_dof/ode/unsteady_solved_flight_conditions.py:306 -/
noncomputable def sqrt_rho_rho_sl (sea_level_density atmosphere_density : ℝ) : ℝ :=
  sqrt (atmosphere_density / sea_level_density)

/-- aviary/mission/solved_two_dof/ode/unsteady_solved_flight_conditions.py:309 -/
noncomputable def cgam (mission_flight_path_angle : ℝ) : ℝ := cos mission_flight_path_angle

/-- aviary/mission/solved_two_dof/ode/unsteady_solved_flight_conditions.py:310 -/
noncomputable def sgam (mission_flight_path_angle : ℝ) : ℝ := sin mission_flight_path_angle

/-- aviary/mission/solved_two_dof/ode/unsteady_solved_flight_conditions.py:350 -/
noncomputable def dsqrt_rho_rho_sl_drho (sea_level_density atmosphere_density : ℝ) : ℝ :=
  ((1 / 2) / (sqrt_rho_rho_sl sea_level_density atmosphere_density)) / sea_level_density

/-- Output `atmosphere_mach` of `UnsteadySolvedFlightConditions.compute`, aviary/mission/solved_two_dof/ode/unsteady_solved_flight_conditions.py:315 -/
noncomputable def out_atmosphere_mach (atmosphere_speed_of_sound mission_velocity : ℝ) : ℝ :=
  mission_velocity / atmosphere_speed_of_sound

/-- Output `eas` of `UnsteadySolvedFlightConditions.compute`, aviary/mission/solved_two_dof/ode/unsteady_solved_flight_conditions.py:316 -/
noncomputable def out_eas (sea_level_density atmosphere_density mission_velocity : ℝ) : ℝ :=
  mission_velocity * (sqrt_rho_rho_sl sea_level_density atmosphere_density)

/-- Output `dtas_dt_approx` of `UnsteadySolvedFlightConditions.compute`, aviary/mission/solved_two_dof/ode/unsteady_solved_flight_conditions.py:317 -/
noncomputable def out_dtas_dt_approx (mission_flight_path_angle mission_velocity dtas_dr : ℝ) : ℝ :=
  (dtas_dr * mission_velocity) * (cgam mission_flight_path_angle)

/-- Output `atmosphere_dynamic_pressure` of `UnsteadySolvedFlightConditions.compute`, aviary/mission/solved_two_dof/ode/unsteady_solved_flight_conditions.py:341 -/
noncomputable def out_atmosphere_dynamic_pressure (atmosphere_density mission_velocity : ℝ) : ℝ :=
  ((1 / 2) * atmosphere_density) * (mission_velocity ^ 2)

/-- Partial of `atmosphere_dynamic_pressure` with respect to `mission_velocity` as set by `UnsteadySolvedFlightConditions`, aviary/mission/solved_two_dof/ode/unsteady_solved_flight_conditions.py:362 -/
noncomputable def J_atmosphere_dynamic_pressure__mission_velocity (atmosphere_density mission_velocity : ℝ) : ℝ :=
  atmosphere_density * mission_velocity

/-- Partial of `atmosphere_dynamic_pressure` with respect to `atmosphere_density` as set by `UnsteadySolvedFlightConditions`, aviary/mission/solved_two_dof/ode/unsteady_solved_flight_conditions.py:363 -/
noncomputable def J_atmosphere_dynamic_pressure__atmosphere_density (mission_velocity : ℝ) : ℝ :=
  (1 / 2) * (mission_velocity ^ 2)

/-- Partial of `atmosphere_mach` with respect to `mission_velocity` as set by `UnsteadySolvedFlightConditions`, aviary/mission/solved_two_dof/ode/unsteady_solved_flight_conditions.py:365 -/
noncomputable def J_atmosphere_mach__mission_velocity (atmosphere_speed_of_sound : ℝ) : ℝ :=
  1 / atmosphere_speed_of_sound

/-- Partial of `atmosphere_mach` with respect to `atmosphere_speed_of_sound` as set by `UnsteadySolvedFlightConditions`, aviary/mission/solved_two_dof/ode/unsteady_solved_flight_conditions.py:366 -/
noncomputable def J_atmosphere_mach__atmosphere_speed_of_sound (atmosphere_speed_of_sound mission_velocity : ℝ) : ℝ :=
  (-mission_velocity) / (atmosphere_speed_of_sound ^ 2)

/-- Partial of `eas` with respect to `mission_velocity` as set by `UnsteadySolvedFlightConditions`, aviary/mission/solved_two_dof/ode/unsteady_solved_flight_conditions.py:368 -/
noncomputable def J_eas__mission_velocity (sea_level_density atmosphere_density : ℝ) : ℝ :=
  sqrt_rho_rho_sl sea_level_density atmosphere_density

/-- Partial of `eas` with respect to `atmosphere_density` as set by `UnsteadySolvedFlightConditions`, aviary/mission/solved_two_dof/ode/unsteady_solved_flight_conditions.py:369 -/
noncomputable def J_eas__atmosphere_density (sea_level_density atmosphere_density mission_velocity : ℝ) : ℝ :=
  mission_velocity * (dsqrt_rho_rho_sl_drho sea_level_density atmosphere_density)

/-- Partial of `dtas_dt_approx` with respect to `dtas_dr` as set by `UnsteadySolvedFlightConditions`, aviary/mission/solved_two_dof/ode/unsteady_solved_flight_conditions.py:371 -/
noncomputable def J_dtas_dt_approx__dtas_dr (mission_flight_path_angle mission_velocity : ℝ) : ℝ :=
  mission_velocity * (cgam mission_flight_path_angle)

/-- Partial of `dtas_dt_approx` with respect to `mission_velocity` as set by `UnsteadySolvedFlightConditions`, aviary/mission/solved_two_dof/ode/unsteady_solved_flight_conditions.py:372 -/
noncomputable def J_dtas_dt_approx__mission_velocity (mission_flight_path_angle dtas_dr : ℝ) : ℝ :=
  dtas_dr * (cgam mission_flight_path_angle)

/-- Partial of `dtas_dt_approx` with respect to `mission_flight_path_angle` as set by `UnsteadySolvedFlightConditions`, aviary/mission/solved_two_dof/ode/unsteady_solved_flight_conditions.py:375 -/
noncomputable def J_dtas_dt_approx__mission_flight_path_angle (mission_flight_path_angle mission_velocity dtas_dr : ℝ) : ℝ :=
  ((-dtas_dr) * mission_velocity) * (sgam mission_flight_path_angle)

theorem d_atmosphere_mach__atmosphere_speed_of_sound (atmosphere_speed_of_sound mission_velocity :
    ℝ) (h0 : 0 < atmosphere_speed_of_sound) :
    HasDerivAt (fun t => out_atmosphere_mach t mission_velocity) (J_atmosphere_mach__atmosphere_speed_of_sound atmosphere_speed_of_sound mission_velocity) atmosphere_speed_of_sound := by
  simp only [out_atmosphere_mach, J_atmosphere_mach__atmosphere_speed_of_sound]
  (apply hasDerivAt_of_eq; on_goal 1 => (repeat' comp_step))
  all_goals try comp_side
  all_goals try simp only [mul_zero, zero_mul, add_zero, zero_add, sub_zero, zero_sub, mul_one, one_mul]
  all_goals try push_cast
  all_goals comp_eq

theorem d_atmosphere_mach__mission_velocity (atmosphere_speed_of_sound mission_velocity : ℝ) (h0 :
    0 < atmosphere_speed_of_sound) :
    HasDerivAt (fun t => out_atmosphere_mach atmosphere_speed_of_sound t) (J_atmosphere_mach__mission_velocity atmosphere_speed_of_sound) mission_velocity := by
  simp only [out_atmosphere_mach, J_atmosphere_mach__mission_velocity]
  (apply hasDerivAt_of_eq; on_goal 1 => (repeat' comp_step))
  all_goals try comp_side
  all_goals try simp only [mul_zero, zero_mul, add_zero, zero_add, sub_zero, zero_sub, mul_one, one_mul]
  all_goals try push_cast
  all_goals comp_eq

theorem d_eas__atmosphere_density (sea_level_density atmosphere_density mission_velocity : ℝ) (h0
    : 0 < sea_level_density) (h1 : 0 < atmosphere_density) :
    HasDerivAt (fun t => out_eas sea_level_density t mission_velocity) (J_eas__atmosphere_density sea_level_density atmosphere_density mission_velocity) atmosphere_density := by
  simp only [out_eas, J_eas__atmosphere_density, dsqrt_rho_rho_sl_drho, sqrt_rho_rho_sl, sqrt_eq_rpow]
  (apply hasDerivAt_of_eq; on_goal 1 => (repeat' comp_step))
  all_goals try comp_side
  all_goals try simp (disch := first | assumption | positivity) only [div_mul_eq_div_div, div_half, inv_half]
  all_goals try simp only [mul_zero, zero_mul, add_zero, zero_add, sub_zero, zero_sub, mul_one, one_mul]
  all_goals try push_cast
  all_goals comp_eq

theorem d_eas__mission_velocity (sea_level_density atmosphere_density mission_velocity : ℝ) (h0 :
    0 < sea_level_density) (h1 : 0 < atmosphere_density) :
    HasDerivAt (fun t => out_eas sea_level_density atmosphere_density t) (J_eas__mission_velocity sea_level_density atmosphere_density) mission_velocity := by
  simp only [out_eas, J_eas__mission_velocity, sqrt_rho_rho_sl, sqrt_eq_rpow]
  (apply hasDerivAt_of_eq; on_goal 1 => (repeat' comp_step))
  all_goals try comp_side
  all_goals try simp (disch := first | assumption | positivity) only [div_mul_eq_div_div, div_half, inv_half]
  all_goals try simp only [mul_zero, zero_mul, add_zero, zero_add, sub_zero, zero_sub, mul_one, one_mul]
  all_goals try push_cast
  all_goals comp_eq

theorem d_dtas_dt_approx__mission_flight_path_angle (mission_flight_path_angle mission_velocity
    dtas_dr : ℝ)  :
    HasDerivAt (fun t => out_dtas_dt_approx t mission_velocity dtas_dr) (J_dtas_dt_approx__mission_flight_path_angle mission_flight_path_angle mission_velocity dtas_dr) mission_flight_path_angle := by
  simp only [out_dtas_dt_approx, J_dtas_dt_approx__mission_flight_path_angle, sgam, cgam]
  (apply hasDerivAt_of_eq; on_goal 1 => (repeat' comp_step))
  all_goals try comp_side
  all_goals try simp only [mul_zero, zero_mul, add_zero, zero_add, sub_zero, zero_sub, mul_one, one_mul]
  all_goals try push_cast
  all_goals comp_eq

theorem d_dtas_dt_approx__mission_velocity (mission_flight_path_angle mission_velocity dtas_dr :
    ℝ)  :
    HasDerivAt (fun t => out_dtas_dt_approx mission_flight_path_angle t dtas_dr) (J_dtas_dt_approx__mission_velocity mission_flight_path_angle dtas_dr) mission_velocity := by
  simp only [out_dtas_dt_approx, J_dtas_dt_approx__mission_velocity, cgam]
  (apply hasDerivAt_of_eq; on_goal 1 => (repeat' comp_step))
  all_goals try comp_side
  all_goals try simp only [mul_zero, zero_mul, add_zero, zero_add, sub_zero, zero_sub, mul_one, one_mul]
  all_goals try push_cast
  all_goals comp_eq

theorem d_dtas_dt_approx__dtas_dr (mission_flight_path_angle mission_velocity dtas_dr : ℝ)  :
    HasDerivAt (fun t => out_dtas_dt_approx mission_flight_path_angle mission_velocity t) (J_dtas_dt_approx__dtas_dr mission_flight_path_angle mission_velocity) dtas_dr := by
  simp only [out_dtas_dt_approx, J_dtas_dt_approx__dtas_dr, cgam]
  (apply hasDerivAt_of_eq; on_goal 1 => (repeat' comp_step))
  all_goals try comp_side
  all_goals try simp only [mul_zero, zero_mul, add_zero, zero_add, sub_zero, zero_sub, mul_one, one_mul]
  all_goals try push_cast
  all_goals comp_eq

theorem d_atmosphere_dynamic_pressure__atmosphere_density (atmosphere_density mission_velocity :
    ℝ)  :
    HasDerivAt (fun t => out_atmosphere_dynamic_pressure t mission_velocity) (J_atmosphere_dynamic_pressure__atmosphere_density mission_velocity) atmosphere_density := by
  simp only [out_atmosphere_dynamic_pressure, J_atmosphere_dynamic_pressure__atmosphere_density]
  (apply hasDerivAt_of_eq; on_goal 1 => (repeat' comp_step))
  all_goals try comp_side
  all_goals try simp only [mul_zero, zero_mul, add_zero, zero_add, sub_zero, zero_sub, mul_one, one_mul]
  all_goals try push_cast
  all_goals comp_eq

theorem d_atmosphere_dynamic_pressure__mission_velocity (atmosphere_density mission_velocity : ℝ)
    :
    HasDerivAt (fun t => out_atmosphere_dynamic_pressure atmosphere_density t) (J_atmosphere_dynamic_pressure__mission_velocity atmosphere_density mission_velocity) mission_velocity := by
  simp only [out_atmosphere_dynamic_pressure, J_atmosphere_dynamic_pressure__mission_velocity]
  (apply hasDerivAt_of_eq; on_goal 1 => (repeat' comp_step))
  all_goals try comp_side
  all_goals try simp only [mul_zero, zero_mul, add_zero, zero_add, sub_zero, zero_sub, mul_one, one_mul]
  all_goals try push_cast
  all_goals comp_eq

/-- Every partial derivative set by `UnsteadySolvedFlightConditions` is the derivative of its output. -/
theorem partials (sea_level_density atmosphere_density atmosphere_speed_of_sound
    mission_flight_path_angle mission_velocity dtas_dr : ℝ) (h0 : 0 < atmosphere_speed_of_sound)
    (h1 : 0 < sea_level_density) (h2 : 0 < atmosphere_density) :
    HasDerivAt (fun t => out_atmosphere_mach t mission_velocity)
      (J_atmosphere_mach__atmosphere_speed_of_sound atmosphere_speed_of_sound mission_velocity)
      atmosphere_speed_of_sound ∧
    HasDerivAt (fun t => out_atmosphere_mach atmosphere_speed_of_sound t)
      (J_atmosphere_mach__mission_velocity atmosphere_speed_of_sound) mission_velocity ∧
    HasDerivAt (fun t => out_eas sea_level_density t mission_velocity) (J_eas__atmosphere_density
      sea_level_density atmosphere_density mission_velocity) atmosphere_density ∧
    HasDerivAt (fun t => out_eas sea_level_density atmosphere_density t) (J_eas__mission_velocity
      sea_level_density atmosphere_density) mission_velocity ∧
    HasDerivAt (fun t => out_dtas_dt_approx t mission_velocity dtas_dr)
      (J_dtas_dt_approx__mission_flight_path_angle mission_flight_path_angle mission_velocity
      dtas_dr) mission_flight_path_angle ∧
    HasDerivAt (fun t => out_dtas_dt_approx mission_flight_path_angle t dtas_dr)
      (J_dtas_dt_approx__mission_velocity mission_flight_path_angle dtas_dr) mission_velocity ∧
    HasDerivAt (fun t => out_dtas_dt_approx mission_flight_path_angle mission_velocity t)
      (J_dtas_dt_approx__dtas_dr mission_flight_path_angle mission_velocity) dtas_dr ∧
    HasDerivAt (fun t => out_atmosphere_dynamic_pressure t mission_velocity)
      (J_atmosphere_dynamic_pressure__atmosphere_density mission_velocity) atmosphere_density ∧
    HasDerivAt (fun t => out_atmosphere_dynamic_pressure atmosphere_density t)
      (J_atmosphere_dynamic_pressure__mission_velocity atmosphere_density mission_velocity)
      mission_velocity :=
  ⟨d_atmosphere_mach__atmosphere_speed_of_sound _ _ h0, d_atmosphere_mach__mission_velocity _ _
    h0, d_eas__atmosphere_density _ _ _ h1 h2, d_eas__mission_velocity _ _ _ h1 h2,
    d_dtas_dt_approx__mission_flight_path_angle _ _ _, d_dtas_dt_approx__mission_velocity _ _ _,
    d_dtas_dt_approx__dtas_dr _ _ _, d_atmosphere_dynamic_pressure__atmosphere_density _ _,
    d_atmosphere_dynamic_pressure__mission_velocity _ _⟩

example : ∃ sea_level_density atmosphere_density atmosphere_speed_of_sound
      mission_flight_path_angle mission_velocity dtas_dr : ℝ,
      0 < atmosphere_speed_of_sound ∧
      0 < sea_level_density ∧
      0 < atmosphere_density :=
  ⟨1, 1, 1, 0, 0, 0, by comp_example, by comp_example, by comp_example⟩

end Verif.Comp.MissionSolvedTwoDofOdeUnsteadySolvedFlightConditions.UnsteadySolvedFlightConditions_no_groundroll_tas

namespace Verif.Comp.MissionSolvedTwoDofOdeUnsteadySolvedFlightConditions.UnsteadySolvedFlightConditions_no_groundroll_eas
open Real

/-- aviary/mission/solved_two_dof/ode/unsteady_solved_flight_conditions.py:306 -/
noncomputable def sqrt_rho_rho_sl (sea_level_density atmosphere_density : ℝ) : ℝ :=
  sqrt (atmosphere_density / sea_level_density)

/-- aviary/mission/solved_two_dof/ode/unsteady_solved_flight_conditions.py:309 -/
noncomputable def cgam (mission_flight_path_angle : ℝ) : ℝ := cos mission_flight_path_angle

/-- aviary/mission/solved_two_dof/ode/unsteady_solved_flight_conditions.py:310 -/
noncomputable def sgam (mission_flight_path_angle : ℝ) : ℝ := sin mission_flight_path_angle

/-- aviary/mission/solved_two_dof/ode/unsteady_solved_flight_conditions.py:323 -/
noncomputable def tas (sea_level_density atmosphere_density eas : ℝ) : ℝ :=
  eas / (sqrt_rho_rho_sl sea_level_density atmosphere_density)

/-- aviary/mission/solved_two_dof/ode/unsteady_solved_flight_conditions.py:325 -/
noncomputable def drho_dt_approx (sea_level_density atmosphere_density mission_flight_path_angle eas drho_dh : ℝ) : ℝ :=
  (drho_dh * (tas sea_level_density atmosphere_density eas)) * (sgam mission_flight_path_angle)

/-- aviary/mission/solved_two_dof/ode/unsteady_solved_flight_conditions.py:326 -/
noncomputable def deas_dt_approx (sea_level_density atmosphere_density mission_flight_path_angle eas deas_dr : ℝ) : ℝ :=
  (deas_dr * (tas sea_level_density atmosphere_density eas)) * (cgam mission_flight_path_angle)

/-- aviary/mission/solved_two_dof/ode/unsteady_solved_flight_conditions.py:383 -/
noncomputable def dtas_drho (sea_level_density atmosphere_density eas : ℝ) : ℝ :=
  (((-(1 / 2)) * eas) * (sea_level_density ^ ((1 / 2) : ℝ))) / (atmosphere_density ^ ((3 / 2) :
    ℝ))

/-- aviary/mission/solved_two_dof/ode/unsteady_solved_flight_conditions.py:384 -/
noncomputable def dtas_deas (sea_level_density atmosphere_density : ℝ) : ℝ :=
  1 / (sqrt_rho_rho_sl sea_level_density atmosphere_density)

/-- Output `mission_velocity` of `UnsteadySolvedFlightConditions.compute`, aviary/mission/solved_two_dof/ode/unsteady_solved_flight_conditions.py:323 -/
noncomputable def out_mission_velocity (sea_level_density atmosphere_density eas : ℝ) : ℝ :=
  tas sea_level_density atmosphere_density eas

/-- Output `atmosphere_mach` of `UnsteadySolvedFlightConditions.compute`, aviary/mission/solved_two_dof/ode/unsteady_solved_flight_conditions.py:324 -/
noncomputable def out_atmosphere_mach (sea_level_density atmosphere_density atmosphere_speed_of_sound eas : ℝ) : ℝ :=
  (tas sea_level_density atmosphere_density eas) / atmosphere_speed_of_sound

/-- Output `dtas_dt_approx` of `UnsteadySolvedFlightConditions.compute`, aviary/mission/solved_two_dof/ode/unsteady_solved_flight_conditions.py:327 -/
noncomputable def out_dtas_dt_approx (sea_level_density atmosphere_density mission_flight_path_angle eas drho_dh deas_dr : ℝ) : ℝ :=
  ((deas_dt_approx sea_level_density atmosphere_density mission_flight_path_angle eas deas_dr) *
    ((sea_level_density / atmosphere_density) ^ ((3 / 2) : ℝ))) - (((((1 / 2) * eas) *
    (drho_dt_approx sea_level_density atmosphere_density mission_flight_path_angle eas drho_dh))
    * (sea_level_density ^ ((3 / 2) : ℝ))) / (sea_level_density ^ ((5 / 2) : ℝ)))

/-- Output `atmosphere_dynamic_pressure` of `UnsteadySolvedFlightConditions.compute`, aviary/mission/solved_two_dof/ode/unsteady_solved_flight_conditions.py:341 -/
noncomputable def out_atmosphere_dynamic_pressure (sea_level_density atmosphere_density eas : ℝ) : ℝ :=
  ((1 / 2) * atmosphere_density) * ((tas sea_level_density atmosphere_density eas) ^ 2)

/-- Partial of `atmosphere_dynamic_pressure` with respect to `eas` as set by `UnsteadySolvedFlightConditions`, aviary/mission/solved_two_dof/ode/unsteady_solved_flight_conditions.py:386 -/
noncomputable def J_atmosphere_dynamic_pressure__eas (sea_level_density eas : ℝ) : ℝ :=
  eas * sea_level_density

/-- Partial of `atmosphere_mach` with respect to `eas` as set by `UnsteadySolvedFlightConditions`, aviary/mission/solved_two_dof/ode/unsteady_solved_flight_conditions.py:387 -/
noncomputable def J_atmosphere_mach__eas (sea_level_density atmosphere_density atmosphere_speed_of_sound : ℝ) : ℝ :=
  (dtas_deas sea_level_density atmosphere_density) / atmosphere_speed_of_sound

/-- Partial of `atmosphere_mach` with respect to `atmosphere_density` as set by `UnsteadySolvedFlightConditions`, aviary/mission/solved_two_dof/ode/unsteady_solved_flight_conditions.py:388 -/
noncomputable def J_atmosphere_mach__atmosphere_density (sea_level_density atmosphere_density atmosphere_speed_of_sound eas : ℝ) : ℝ :=
  (dtas_drho sea_level_density atmosphere_density eas) / atmosphere_speed_of_sound

/-- Partial of `atmosphere_mach` with respect to `atmosphere_speed_of_sound` as set by `UnsteadySolvedFlightConditions`, aviary/mission/solved_two_dof/ode/unsteady_solved_flight_conditions.py:389 -/
noncomputable def J_atmosphere_mach__atmosphere_speed_of_sound (sea_level_density atmosphere_density atmosphere_speed_of_sound eas : ℝ) : ℝ :=
  (-(tas sea_level_density atmosphere_density eas)) / (atmosphere_speed_of_sound ^ 2)

/-- Partial of `mission_velocity` with respect to `atmosphere_density` as set by `UnsteadySolvedFlightConditions`, aviary/mission/solved_two_dof/ode/unsteady_solved_flight_conditions.py:390 -/
noncomputable def J_mission_velocity__atmosphere_density (sea_level_density atmosphere_density eas : ℝ) : ℝ :=
  dtas_drho sea_level_density atmosphere_density eas

/-- Partial of `mission_velocity` with respect to `eas` as set by `UnsteadySolvedFlightConditions`, aviary/mission/solved_two_dof/ode/unsteady_solved_flight_conditions.py:391 -/
noncomputable def J_mission_velocity__eas (sea_level_density atmosphere_density : ℝ) : ℝ :=
  dtas_deas sea_level_density atmosphere_density

/-- Partial of `dtas_dt_approx` with respect to `deas_dr` as set by `UnsteadySolvedFlightConditions`, aviary/mission/solved_two_dof/ode/unsteady_solved_flight_conditions.py:392 -/
noncomputable def J_dtas_dt_approx__deas_dr (sea_level_density atmosphere_density mission_flight_path_angle eas : ℝ) : ℝ :=
  ((tas sea_level_density atmosphere_density eas) * (cgam mission_flight_path_angle)) *
    ((sea_level_density / atmosphere_density) ^ ((3 / 2) : ℝ))

/-- Partial of `dtas_dt_approx` with respect to `drho_dh` as set by `UnsteadySolvedFlightConditions`, aviary/mission/solved_two_dof/ode/unsteady_solved_flight_conditions.py:393 -/
noncomputable def J_dtas_dt_approx__drho_dh (sea_level_density atmosphere_density mission_flight_path_angle eas : ℝ) : ℝ :=
  (((((-(1 / 2)) * eas) * (tas sea_level_density atmosphere_density eas)) * (sgam
    mission_flight_path_angle)) * (sea_level_density ^ ((3 / 2) : ℝ))) / (sea_level_density ^
    ((5 / 2) : ℝ))

/-- Partial of `dtas_dt_approx` with respect to `mission_flight_path_angle` as set by `UnsteadySolvedFlightConditions`, aviary/mission/solved_two_dof/ode/unsteady_solved_flight_conditions.py:398 -/
noncomputable def J_dtas_dt_approx__mission_flight_path_angle (sea_level_density atmosphere_density mission_flight_path_angle eas drho_dh deas_dr : ℝ) : ℝ :=
  ((((-(tas sea_level_density atmosphere_density eas)) * (sgam mission_flight_path_angle)) *
    ((sea_level_density / atmosphere_density) ^ ((3 / 2) : ℝ))) * deas_dr) - (((((((1 / 2) *
    eas) * (tas sea_level_density atmosphere_density eas)) * (cgam mission_flight_path_angle)) *
    (sea_level_density ^ ((3 / 2) : ℝ))) / (sea_level_density ^ ((5 / 2) : ℝ))) * drho_dh)

theorem d_mission_velocity__atmosphere_density (sea_level_density atmosphere_density eas : ℝ) (h0
    : 0 < sea_level_density) (h1 : 0 < atmosphere_density) :
    HasDerivAt (fun t => out_mission_velocity sea_level_density t eas) (J_mission_velocity__atmosphere_density sea_level_density atmosphere_density eas) atmosphere_density := by
  have e0 : ∀ x : ℝ, 0 < x → x ^ ((3 / 2) : ℝ) = x ^ ((1 / 2) : ℝ) * x ^ 1 := fun x hx => rpow_up hx 1 (by norm_num)
  simp only [out_mission_velocity, J_mission_velocity__atmosphere_density, dtas_drho, tas, sqrt_rho_rho_sl, sqrt_eq_rpow]
  (apply hasDerivAt_of_eq; on_goal 1 => (repeat' comp_step))
  all_goals try comp_side
  all_goals try simp (disch := first | assumption | positivity) only [mul_rpow, div_rpow, e0, div_mul_eq_div_div, div_half, inv_half]
  all_goals try simp only [mul_zero, zero_mul, add_zero, zero_add, sub_zero, zero_sub, mul_one, one_mul]
  all_goals try push_cast
  all_goals comp_eq

theorem d_mission_velocity__eas (sea_level_density atmosphere_density eas : ℝ) (h0 : 0 <
    sea_level_density) (h1 : 0 < atmosphere_density) :
    HasDerivAt (fun t => out_mission_velocity sea_level_density atmosphere_density t) (J_mission_velocity__eas sea_level_density atmosphere_density) eas := by
  simp only [out_mission_velocity, J_mission_velocity__eas, dtas_deas, tas, sqrt_rho_rho_sl, sqrt_eq_rpow]
  (apply hasDerivAt_of_eq; on_goal 1 => (repeat' comp_step))
  all_goals try comp_side
  all_goals try simp (disch := first | assumption | positivity) only [div_mul_eq_div_div, div_half, inv_half]
  all_goals try simp only [mul_zero, zero_mul, add_zero, zero_add, sub_zero, zero_sub, mul_one, one_mul]
  all_goals try push_cast
  all_goals comp_eq

theorem d_atmosphere_mach__atmosphere_density (sea_level_density atmosphere_density
    atmosphere_speed_of_sound eas : ℝ) (h0 : 0 < sea_level_density) (h1 : 0 < atmosphere_density)
    (h2 : 0 < atmosphere_speed_of_sound) :
    HasDerivAt (fun t => out_atmosphere_mach sea_level_density t atmosphere_speed_of_sound eas) (J_atmosphere_mach__atmosphere_density sea_level_density atmosphere_density atmosphere_speed_of_sound eas) atmosphere_density := by
  have e0 : ∀ x : ℝ, 0 < x → x ^ ((3 / 2) : ℝ) = x ^ ((1 / 2) : ℝ) * x ^ 1 := fun x hx => rpow_up hx 1 (by norm_num)
  simp only [out_atmosphere_mach, J_atmosphere_mach__atmosphere_density, dtas_drho, tas, sqrt_rho_rho_sl, sqrt_eq_rpow]
  (apply hasDerivAt_of_eq; on_goal 1 => (repeat' comp_step))
  all_goals try comp_side
  all_goals try simp (disch := first | assumption | positivity) only [mul_rpow, div_rpow, e0, div_mul_eq_div_div, div_half, inv_half]
  all_goals try simp only [mul_zero, zero_mul, add_zero, zero_add, sub_zero, zero_sub, mul_one, one_mul]
  all_goals try push_cast
  all_goals comp_eq

theorem d_atmosphere_mach__atmosphere_speed_of_sound (sea_level_density atmosphere_density
    atmosphere_speed_of_sound eas : ℝ) (h0 : 0 < sea_level_density) (h1 : 0 < atmosphere_density)
    (h2 : 0 < atmosphere_speed_of_sound) :
    HasDerivAt (fun t => out_atmosphere_mach sea_level_density atmosphere_density t eas) (J_atmosphere_mach__atmosphere_speed_of_sound sea_level_density atmosphere_density atmosphere_speed_of_sound eas) atmosphere_speed_of_sound := by
  simp only [out_atmosphere_mach, J_atmosphere_mach__atmosphere_speed_of_sound, tas, sqrt_rho_rho_sl, sqrt_eq_rpow]
  (apply hasDerivAt_of_eq; on_goal 1 => (repeat' comp_step))
  all_goals try comp_side
  all_goals try simp (disch := first | assumption | positivity) only [div_mul_eq_div_div, div_half, inv_half]
  all_goals try simp only [mul_zero, zero_mul, add_zero, zero_add, sub_zero, zero_sub, mul_one, one_mul]
  all_goals try push_cast
  all_goals comp_eq

theorem d_atmosphere_mach__eas (sea_level_density atmosphere_density atmosphere_speed_of_sound eas
    : ℝ) (h0 : 0 < sea_level_density) (h1 : 0 < atmosphere_density) (h2 : 0 <
    atmosphere_speed_of_sound) :
    HasDerivAt (fun t => out_atmosphere_mach sea_level_density atmosphere_density atmosphere_speed_of_sound t) (J_atmosphere_mach__eas sea_level_density atmosphere_density atmosphere_speed_of_sound) eas := by
  simp only [out_atmosphere_mach, J_atmosphere_mach__eas, dtas_deas, tas, sqrt_rho_rho_sl, sqrt_eq_rpow]
  (apply hasDerivAt_of_eq; on_goal 1 => (repeat' comp_step))
  all_goals try comp_side
  all_goals try simp (disch := first | assumption | positivity) only [div_mul_eq_div_div, div_half, inv_half]
  all_goals try simp only [mul_zero, zero_mul, add_zero, zero_add, sub_zero, zero_sub, mul_one, one_mul]
  all_goals try push_cast
  all_goals comp_eq

theorem d_dtas_dt_approx__mission_flight_path_angle (sea_level_density atmosphere_density
    mission_flight_path_angle eas drho_dh deas_dr : ℝ) (h0 : 0 < sea_level_density) (h1 : 0 <
    atmosphere_density) :
    HasDerivAt (fun t => out_dtas_dt_approx sea_level_density atmosphere_density t eas drho_dh deas_dr) (J_dtas_dt_approx__mission_flight_path_angle sea_level_density atmosphere_density mission_flight_path_angle eas drho_dh deas_dr) mission_flight_path_angle := by
  have e0 : ∀ x : ℝ, 0 < x → x ^ ((3 / 2) : ℝ) = x ^ ((1 / 2) : ℝ) * x ^ 1 := fun x hx => rpow_up hx 1 (by norm_num)
  have e1 : ∀ x : ℝ, 0 < x → x ^ ((5 / 2) : ℝ) = x ^ ((1 / 2) : ℝ) * x ^ 2 := fun x hx => rpow_up hx 2 (by norm_num)
  simp only [out_dtas_dt_approx, J_dtas_dt_approx__mission_flight_path_angle, drho_dt_approx, sgam, deas_dt_approx, cgam, tas, sqrt_rho_rho_sl, sqrt_eq_rpow]
  (apply hasDerivAt_of_eq; on_goal 1 => (repeat' comp_step))
  all_goals try comp_side
  all_goals try simp (disch := first | assumption | positivity) only [e0, e1, div_mul_eq_div_div, div_half, inv_half]
  all_goals try simp only [mul_zero, zero_mul, add_zero, zero_add, sub_zero, zero_sub, mul_one, one_mul]
  all_goals try push_cast
  all_goals comp_eq

theorem d_dtas_dt_approx__drho_dh (sea_level_density atmosphere_density mission_flight_path_angle
    eas drho_dh deas_dr : ℝ) (h0 : 0 < sea_level_density) (h1 : 0 < atmosphere_density) :
    HasDerivAt (fun t => out_dtas_dt_approx sea_level_density atmosphere_density mission_flight_path_angle eas t deas_dr) (J_dtas_dt_approx__drho_dh sea_level_density atmosphere_density mission_flight_path_angle eas) drho_dh := by
  have e0 : ∀ x : ℝ, 0 < x → x ^ ((3 / 2) : ℝ) = x ^ ((1 / 2) : ℝ) * x ^ 1 := fun x hx => rpow_up hx 1 (by norm_num)
  have e1 : ∀ x : ℝ, 0 < x → x ^ ((5 / 2) : ℝ) = x ^ ((1 / 2) : ℝ) * x ^ 2 := fun x hx => rpow_up hx 2 (by norm_num)
  simp only [out_dtas_dt_approx, J_dtas_dt_approx__drho_dh, drho_dt_approx, sgam, deas_dt_approx, cgam, tas, sqrt_rho_rho_sl, sqrt_eq_rpow]
  (apply hasDerivAt_of_eq; on_goal 1 => (repeat' comp_step))
  all_goals try comp_side
  all_goals try simp (disch := first | assumption | positivity) only [e0, e1, div_mul_eq_div_div, div_half, inv_half]
  all_goals try simp only [mul_zero, zero_mul, add_zero, zero_add, sub_zero, zero_sub, mul_one, one_mul]
  all_goals try push_cast
  all_goals comp_eq

theorem d_dtas_dt_approx__deas_dr (sea_level_density atmosphere_density mission_flight_path_angle
    eas drho_dh deas_dr : ℝ) (h0 : 0 < sea_level_density) (h1 : 0 < atmosphere_density) :
    HasDerivAt (fun t => out_dtas_dt_approx sea_level_density atmosphere_density mission_flight_path_angle eas drho_dh t) (J_dtas_dt_approx__deas_dr sea_level_density atmosphere_density mission_flight_path_angle eas) deas_dr := by
  have e0 : ∀ x : ℝ, 0 < x → x ^ ((3 / 2) : ℝ) = x ^ ((1 / 2) : ℝ) * x ^ 1 := fun x hx => rpow_up hx 1 (by norm_num)
  have e1 : ∀ x : ℝ, 0 < x → x ^ ((5 / 2) : ℝ) = x ^ ((1 / 2) : ℝ) * x ^ 2 := fun x hx => rpow_up hx 2 (by norm_num)
  simp only [out_dtas_dt_approx, J_dtas_dt_approx__deas_dr, drho_dt_approx, sgam, deas_dt_approx, cgam, tas, sqrt_rho_rho_sl, sqrt_eq_rpow]
  (apply hasDerivAt_of_eq; on_goal 1 => (repeat' comp_step))
  all_goals try comp_side
  all_goals try simp (disch := first | assumption | positivity) only [e0, e1, div_mul_eq_div_div, div_half, inv_half]
  all_goals try simp only [mul_zero, zero_mul, add_zero, zero_add, sub_zero, zero_sub, mul_one, one_mul]
  all_goals try push_cast
  all_goals comp_eq

theorem d_atmosphere_dynamic_pressure__eas (sea_level_density atmosphere_density eas : ℝ) (h0 : 0
    < sea_level_density) (h1 : 0 < atmosphere_density) :
    HasDerivAt (fun t => out_atmosphere_dynamic_pressure sea_level_density atmosphere_density t) (J_atmosphere_dynamic_pressure__eas sea_level_density eas) eas := by
  simp only [out_atmosphere_dynamic_pressure, J_atmosphere_dynamic_pressure__eas, tas, sqrt_rho_rho_sl, sqrt_eq_rpow]
  (apply hasDerivAt_of_eq; on_goal 1 => (repeat' comp_step))
  all_goals try comp_side
  all_goals try simp (disch := first | assumption | positivity) only [mul_rpow, div_rpow, div_mul_eq_div_div, div_half, inv_half]
  all_goals try simp only [mul_zero, zero_mul, add_zero, zero_add, sub_zero, zero_sub, mul_one, one_mul]
  all_goals try push_cast
  all_goals comp_eq

/-- Partial derivatives of `UnsteadySolvedFlightConditions` that are proved correct (the rest is listed in the header). -/
theorem partials_partial (sea_level_density atmosphere_density atmosphere_speed_of_sound
    mission_flight_path_angle eas drho_dh deas_dr : ℝ) (h0 : 0 < sea_level_density) (h1 : 0 <
    atmosphere_density) (h2 : 0 < atmosphere_speed_of_sound) :
    HasDerivAt (fun t => out_mission_velocity sea_level_density t eas)
      (J_mission_velocity__atmosphere_density sea_level_density atmosphere_density eas)
      atmosphere_density ∧
    HasDerivAt (fun t => out_mission_velocity sea_level_density atmosphere_density t)
      (J_mission_velocity__eas sea_level_density atmosphere_density) eas ∧
    HasDerivAt (fun t => out_atmosphere_mach sea_level_density t atmosphere_speed_of_sound eas)
      (J_atmosphere_mach__atmosphere_density sea_level_density atmosphere_density
      atmosphere_speed_of_sound eas) atmosphere_density ∧
    HasDerivAt (fun t => out_atmosphere_mach sea_level_density atmosphere_density t eas)
      (J_atmosphere_mach__atmosphere_speed_of_sound sea_level_density atmosphere_density
      atmosphere_speed_of_sound eas) atmosphere_speed_of_sound ∧
    HasDerivAt (fun t => out_atmosphere_mach sea_level_density atmosphere_density
      atmosphere_speed_of_sound t) (J_atmosphere_mach__eas sea_level_density atmosphere_density
      atmosphere_speed_of_sound) eas ∧
    HasDerivAt (fun t => out_dtas_dt_approx sea_level_density atmosphere_density t eas drho_dh
      deas_dr) (J_dtas_dt_approx__mission_flight_path_angle sea_level_density atmosphere_density
      mission_flight_path_angle eas drho_dh deas_dr) mission_flight_path_angle ∧
    HasDerivAt (fun t => out_dtas_dt_approx sea_level_density atmosphere_density
      mission_flight_path_angle eas t deas_dr) (J_dtas_dt_approx__drho_dh sea_level_density
      atmosphere_density mission_flight_path_angle eas) drho_dh ∧
    HasDerivAt (fun t => out_dtas_dt_approx sea_level_density atmosphere_density
      mission_flight_path_angle eas drho_dh t) (J_dtas_dt_approx__deas_dr sea_level_density
      atmosphere_density mission_flight_path_angle eas) deas_dr ∧
    HasDerivAt (fun t => out_atmosphere_dynamic_pressure sea_level_density atmosphere_density t)
      (J_atmosphere_dynamic_pressure__eas sea_level_density eas) eas :=
  ⟨d_mission_velocity__atmosphere_density _ _ _ h0 h1, d_mission_velocity__eas _ _ _ h0 h1,
    d_atmosphere_mach__atmosphere_density _ _ _ _ h0 h1 h2,
    d_atmosphere_mach__atmosphere_speed_of_sound _ _ _ _ h0 h1 h2, d_atmosphere_mach__eas _ _ _ _
    h0 h1 h2, d_dtas_dt_approx__mission_flight_path_angle _ _ _ _ _ _ h0 h1,
    d_dtas_dt_approx__drho_dh _ _ _ _ _ _ h0 h1, d_dtas_dt_approx__deas_dr _ _ _ _ _ _ h0 h1,
    d_atmosphere_dynamic_pressure__eas _ _ _ h0 h1⟩

example : ∃ sea_level_density atmosphere_density atmosphere_speed_of_sound
      mission_flight_path_angle eas drho_dh deas_dr : ℝ,
      0 < sea_level_density ∧
      0 < atmosphere_density ∧
      0 < atmosphere_speed_of_sound :=
  ⟨1, 1, 1, 0, 0, 0, 0, by comp_example, by comp_example, by comp_example⟩

/-- The derivative of output `dtas_dt_approx` with respect to `atmosphere_density`. -/
noncomputable def D_dtas_dt_approx__atmosphere_density (sea_level_density atmosphere_density mission_flight_path_angle eas drho_dh deas_dr : ℝ) : ℝ :=
  ((((deas_dr * (-((eas * ((1 / sea_level_density) / (2 * (sqrt (atmosphere_density /
    sea_level_density))))) / ((sqrt_rho_rho_sl sea_level_density atmosphere_density) ^ 2)))) *
    (cgam mission_flight_path_angle)) * ((sea_level_density / atmosphere_density) ^ ((3 / 2) :
    ℝ))) + ((deas_dt_approx sea_level_density atmosphere_density mission_flight_path_angle eas
    deas_dr) * (((3 / 2) * ((sea_level_density / atmosphere_density) ^ ((1 / 2) : ℝ))) *
    (-(sea_level_density / (atmosphere_density ^ 2)))))) - (((((1 / 2) * eas) * ((drho_dh *
    (-((eas * ((1 / sea_level_density) / (2 * (sqrt (atmosphere_density / sea_level_density)))))
    / ((sqrt_rho_rho_sl sea_level_density atmosphere_density) ^ 2)))) * (sgam
    mission_flight_path_angle))) * (sea_level_density ^ ((3 / 2) : ℝ))) / (sea_level_density ^
    ((5 / 2) : ℝ)))

theorem true_d_dtas_dt_approx__atmosphere_density (sea_level_density atmosphere_density
    mission_flight_path_angle eas drho_dh deas_dr : ℝ) (h0 : 0 < sea_level_density) (h1 : 0 <
    atmosphere_density) :
    HasDerivAt (fun t => out_dtas_dt_approx sea_level_density t mission_flight_path_angle eas
      drho_dh deas_dr) (D_dtas_dt_approx__atmosphere_density sea_level_density atmosphere_density
      mission_flight_path_angle eas drho_dh deas_dr) atmosphere_density := by
  have e0 : ∀ x : ℝ, 0 < x → x ^ ((3 / 2) : ℝ) = x ^ ((1 / 2) : ℝ) * x ^ 1 := fun x hx => rpow_up hx 1 (by norm_num)
  have e1 : ∀ x : ℝ, 0 < x → x ^ ((5 / 2) : ℝ) = x ^ ((1 / 2) : ℝ) * x ^ 2 := fun x hx => rpow_up hx 2 (by norm_num)
  simp only [out_dtas_dt_approx, D_dtas_dt_approx__atmosphere_density, drho_dt_approx, sgam, deas_dt_approx, cgam, tas, sqrt_rho_rho_sl, sqrt_eq_rpow]
  (apply hasDerivAt_of_eq; on_goal 1 => (repeat' comp_step))
  all_goals try comp_side
  all_goals try simp (disch := first | assumption | positivity) only [e0, e1, div_mul_eq_div_div, div_half, inv_half]
  all_goals try simp only [mul_zero, zero_mul, add_zero, zero_add, sub_zero, zero_sub, mul_one, one_mul]
  all_goals try push_cast
  all_goals comp_eq

/-- No entry is set for `dtas_dt_approx` by `atmosphere_density` (so it is zero), but the derivative does not vanish. -/
theorem J_dtas_dt_approx__atmosphere_density_violated : ∃ sea_level_density atmosphere_density
      mission_flight_path_angle eas drho_dh deas_dr : ℝ,
      0 < sea_level_density ∧
      0 < atmosphere_density ∧
      ¬ HasDerivAt (fun t => out_dtas_dt_approx sea_level_density t mission_flight_path_angle eas
        drho_dh deas_dr) 0 atmosphere_density := by
  refine ⟨1, 1, 0, 1, 0, 1, by comp_example, by comp_example, fun h => ?_⟩
  have e := h.unique (true_d_dtas_dt_approx__atmosphere_density (1) (1) (0) (1) (0) (1) (by
    comp_example) (by comp_example))
  norm_num [D_dtas_dt_approx__atmosphere_density, sgam, deas_dt_approx, tas, cgam,
    sqrt_rho_rho_sl] at e

/-- The derivative of output `dtas_dt_approx` with respect to `eas`. -/
noncomputable def D_dtas_dt_approx__eas (sea_level_density atmosphere_density mission_flight_path_angle eas drho_dh deas_dr : ℝ) : ℝ :=
  (((deas_dr * (1 / (sqrt_rho_rho_sl sea_level_density atmosphere_density))) * (cgam
    mission_flight_path_angle)) * ((sea_level_density / atmosphere_density) ^ ((3 / 2) : ℝ))) -
    (((((1 / 2) * (drho_dt_approx sea_level_density atmosphere_density mission_flight_path_angle
    eas drho_dh)) + (((1 / 2) * eas) * ((drho_dh * (1 / (sqrt_rho_rho_sl sea_level_density
    atmosphere_density))) * (sgam mission_flight_path_angle)))) * (sea_level_density ^ ((3 / 2)
    : ℝ))) / (sea_level_density ^ ((5 / 2) : ℝ)))

theorem true_d_dtas_dt_approx__eas (sea_level_density atmosphere_density mission_flight_path_angle
    eas drho_dh deas_dr : ℝ) (h0 : 0 < sea_level_density) (h1 : 0 < atmosphere_density) :
    HasDerivAt (fun t => out_dtas_dt_approx sea_level_density atmosphere_density
      mission_flight_path_angle t drho_dh deas_dr) (D_dtas_dt_approx__eas sea_level_density
      atmosphere_density mission_flight_path_angle eas drho_dh deas_dr) eas := by
  have e0 : ∀ x : ℝ, 0 < x → x ^ ((3 / 2) : ℝ) = x ^ ((1 / 2) : ℝ) * x ^ 1 := fun x hx => rpow_up hx 1 (by norm_num)
  have e1 : ∀ x : ℝ, 0 < x → x ^ ((5 / 2) : ℝ) = x ^ ((1 / 2) : ℝ) * x ^ 2 := fun x hx => rpow_up hx 2 (by norm_num)
  simp only [out_dtas_dt_approx, D_dtas_dt_approx__eas, drho_dt_approx, sgam, deas_dt_approx, cgam, tas, sqrt_rho_rho_sl, sqrt_eq_rpow]
  (apply hasDerivAt_of_eq; on_goal 1 => (repeat' comp_step))
  all_goals try comp_side
  all_goals try simp (disch := first | assumption | positivity) only [e0, e1, div_mul_eq_div_div, div_half, inv_half]
  all_goals try simp only [mul_zero, zero_mul, add_zero, zero_add, sub_zero, zero_sub, mul_one, one_mul]
  all_goals try push_cast
  all_goals comp_eq

/-- No entry is set for `dtas_dt_approx` by `eas` (so it is zero), but the derivative does not vanish. -/
theorem J_dtas_dt_approx__eas_violated : ∃ sea_level_density atmosphere_density
      mission_flight_path_angle eas drho_dh deas_dr : ℝ,
      0 < sea_level_density ∧
      0 < atmosphere_density ∧
      ¬ HasDerivAt (fun t => out_dtas_dt_approx sea_level_density atmosphere_density
        mission_flight_path_angle t drho_dh deas_dr) 0 eas := by
  refine ⟨1, 1, 0, 0, 0, 1, by comp_example, by comp_example, fun h => ?_⟩
  have e := h.unique (true_d_dtas_dt_approx__eas (1) (1) (0) (0) (0) (1) (by comp_example) (by
    comp_example))
  norm_num [D_dtas_dt_approx__eas, drho_dt_approx, sgam, tas, cgam, sqrt_rho_rho_sl] at e

end Verif.Comp.MissionSolvedTwoDofOdeUnsteadySolvedFlightConditions.UnsteadySolvedFlightConditions_no_groundroll_eas

