import Verif.Lemmas.CompDeriv

/-! # Partial derivatives of the components of `aviary/mission/solved_two_dof/ode/unsteady_solved_flight_conditions.py`

One node of a vector component is modelled over the real numbers.  Each option that selects a
branch is fixed, one namespace per choice.  `out_x` is the output `x`, `J_x__y` the entry that
`compute_partials` (or `declare_partials` with `val`) assigns, `d_x__y` the proof that the entry is
the derivative.  Inputs an output does not take as argument have no influence on it.

* `UnsteadySolvedFlightConditions_no_groundroll_otherinputspeedtype`: derivatives without an
  entry: `dtas_dt_approx` by `atmosphere_mach`, `dtas_dt_approx` by `atmosphere_speed_of_sound` -/

set_option linter.all false

namespace Verif.Comp.MissionSolvedTwoDofOdeUnsteadySolvedFlightConditions.UnsteadySolvedFlightConditions_no_groundroll_otherinputspeedtype
open Real

/-- aviary/mission/solved_two_dof/ode/unsteady_solved_flight_conditions.py:306 -/
noncomputable def sqrt_rho_rho_sl (sea_level_density atmosphere_density : ℝ) : ℝ :=
  sqrt (atmosphere_density / sea_level_density)

/-- aviary/mission/solved_two_dof/ode/unsteady_solved_flight_conditions.py:309 -/
noncomputable def cgam (mission_flight_path_angle : ℝ) : ℝ := cos mission_flight_path_angle

/-- aviary/mission/solved_two_dof/ode/unsteady_solved_flight_conditions.py:310 -/
noncomputable def sgam (mission_flight_path_angle : ℝ) : ℝ := sin mission_flight_path_angle

/-- aviary/mission/solved_two_dof/ode/unsteady_solved_flight_conditions.py:335 -/
noncomputable def tas (atmosphere_speed_of_sound atmosphere_mach : ℝ) : ℝ :=
  atmosphere_speed_of_sound * atmosphere_mach

/-- aviary/mission/solved_two_dof/ode/unsteady_solved_flight_conditions.py:337 -/
noncomputable def dmach_dt_approx (atmosphere_speed_of_sound mission_flight_path_angle atmosphere_mach dmach_dr : ℝ) : ℝ :=
  (dmach_dr * (tas atmosphere_speed_of_sound atmosphere_mach)) * (cgam
    mission_flight_path_angle)

/-- aviary/mission/solved_two_dof/ode/unsteady_solved_flight_conditions.py:338 -/
noncomputable def dsos_dt_approx (atmosphere_speed_of_sound mission_flight_path_angle atmosphere_mach dsos_dh : ℝ) : ℝ :=
  (dsos_dh * (tas atmosphere_speed_of_sound atmosphere_mach)) * (sgam mission_flight_path_angle)

/-- Output `mission_velocity` of `UnsteadySolvedFlightConditions.compute`, aviary/mission/solved_two_dof/ode/unsteady_solved_flight_conditions.py:335 -/
noncomputable def out_mission_velocity (atmosphere_speed_of_sound atmosphere_mach : ℝ) : ℝ :=
  tas atmosphere_speed_of_sound atmosphere_mach

/-- Output `eas` of `UnsteadySolvedFlightConditions.compute`, aviary/mission/solved_two_dof/ode/unsteady_solved_flight_conditions.py:336 -/
noncomputable def out_eas (sea_level_density atmosphere_density atmosphere_speed_of_sound atmosphere_mach : ℝ) : ℝ :=
  (tas atmosphere_speed_of_sound atmosphere_mach) * (sqrt_rho_rho_sl sea_level_density
    atmosphere_density)

/-- Output `dtas_dt_approx` of `UnsteadySolvedFlightConditions.compute`, aviary/mission/solved_two_dof/ode/unsteady_solved_flight_conditions.py:339 -/
noncomputable def out_dtas_dt_approx (atmosphere_speed_of_sound mission_flight_path_angle atmosphere_mach dmach_dr dsos_dh : ℝ) : ℝ :=
  ((dmach_dt_approx atmosphere_speed_of_sound mission_flight_path_angle atmosphere_mach
    dmach_dr) * atmosphere_speed_of_sound) + (((dsos_dt_approx atmosphere_speed_of_sound
    mission_flight_path_angle atmosphere_mach dsos_dh) * (tas atmosphere_speed_of_sound
    atmosphere_mach)) / atmosphere_speed_of_sound)

/-- Output `atmosphere_dynamic_pressure` of `UnsteadySolvedFlightConditions.compute`, aviary/mission/solved_two_dof/ode/unsteady_solved_flight_conditions.py:341 -/
noncomputable def out_atmosphere_dynamic_pressure (atmosphere_density atmosphere_speed_of_sound atmosphere_mach : ℝ) : ℝ :=
  ((1 / 2) * atmosphere_density) * ((tas atmosphere_speed_of_sound atmosphere_mach) ^ 2)

/-- Partial of `atmosphere_dynamic_pressure` with respect to `atmosphere_speed_of_sound` as set by `UnsteadySolvedFlightConditions`, aviary/mission/solved_two_dof/ode/unsteady_solved_flight_conditions.py:407 -/
noncomputable def J_atmosphere_dynamic_pressure__atmosphere_speed_of_sound (atmosphere_density atmosphere_speed_of_sound atmosphere_mach : ℝ) : ℝ :=
  (atmosphere_density * atmosphere_speed_of_sound) * (atmosphere_mach ^ 2)

/-- Partial of `atmosphere_dynamic_pressure` with respect to `atmosphere_mach` as set by `UnsteadySolvedFlightConditions`, aviary/mission/solved_two_dof/ode/unsteady_solved_flight_conditions.py:410 -/
noncomputable def J_atmosphere_dynamic_pressure__atmosphere_mach (atmosphere_density atmosphere_speed_of_sound atmosphere_mach : ℝ) : ℝ :=
  (atmosphere_density * (atmosphere_speed_of_sound ^ 2)) * atmosphere_mach

/-- Partial of `atmosphere_dynamic_pressure` with respect to `atmosphere_density` as set by `UnsteadySolvedFlightConditions`, aviary/mission/solved_two_dof/ode/unsteady_solved_flight_conditions.py:413 -/
noncomputable def J_atmosphere_dynamic_pressure__atmosphere_density (atmosphere_speed_of_sound atmosphere_mach : ℝ) : ℝ :=
  ((1 / 2) * (atmosphere_speed_of_sound ^ 2)) * (atmosphere_mach ^ 2)

/-- Partial of `mission_velocity` with respect to `atmosphere_speed_of_sound` as set by `UnsteadySolvedFlightConditions`, aviary/mission/solved_two_dof/ode/unsteady_solved_flight_conditions.py:416 -/
noncomputable def J_mission_velocity__atmosphere_speed_of_sound (atmosphere_mach : ℝ) : ℝ :=
  atmosphere_mach

/-- Partial of `mission_velocity` with respect to `atmosphere_mach` as set by `UnsteadySolvedFlightConditions`, aviary/mission/solved_two_dof/ode/unsteady_solved_flight_conditions.py:417 -/
noncomputable def J_mission_velocity__atmosphere_mach (atmosphere_speed_of_sound : ℝ) : ℝ :=
  atmosphere_speed_of_sound

/-- Partial of `eas` with respect to `atmosphere_speed_of_sound` as set by `UnsteadySolvedFlightConditions`, aviary/mission/solved_two_dof/ode/unsteady_solved_flight_conditions.py:418 -/
noncomputable def J_eas__atmosphere_speed_of_sound (sea_level_density atmosphere_density atmosphere_mach : ℝ) : ℝ :=
  atmosphere_mach * (sqrt_rho_rho_sl sea_level_density atmosphere_density)

/-- Partial of `eas` with respect to `atmosphere_mach` as set by `UnsteadySolvedFlightConditions`, aviary/mission/solved_two_dof/ode/unsteady_solved_flight_conditions.py:419 -/
noncomputable def J_eas__atmosphere_mach (sea_level_density atmosphere_density atmosphere_speed_of_sound : ℝ) : ℝ :=
  atmosphere_speed_of_sound * (sqrt_rho_rho_sl sea_level_density atmosphere_density)

/-- Partial of `eas` with respect to `atmosphere_density` as set by `UnsteadySolvedFlightConditions`, aviary/mission/solved_two_dof/ode/unsteady_solved_flight_conditions.py:420 -/
noncomputable def J_eas__atmosphere_density (sea_level_density atmosphere_density atmosphere_speed_of_sound atmosphere_mach : ℝ) : ℝ :=
  (((tas atmosphere_speed_of_sound atmosphere_mach) * ((1 / sea_level_density) ^ ((1 / 2) : ℝ)))
    * (1 / 2)) * (atmosphere_density ^ ((-(1 / 2)) : ℝ))

/-- Partial of `dtas_dt_approx` with respect to `dmach_dr` as set by `UnsteadySolvedFlightConditions`, aviary/mission/solved_two_dof/ode/unsteady_solved_flight_conditions.py:423 -/
noncomputable def J_dtas_dt_approx__dmach_dr (atmosphere_speed_of_sound mission_flight_path_angle atmosphere_mach : ℝ) : ℝ :=
  ((tas atmosphere_speed_of_sound atmosphere_mach) * (cgam mission_flight_path_angle)) *
    atmosphere_speed_of_sound

/-- Partial of `dtas_dt_approx` with respect to `dsos_dh` as set by `UnsteadySolvedFlightConditions`, aviary/mission/solved_two_dof/ode/unsteady_solved_flight_conditions.py:424 -/
noncomputable def J_dtas_dt_approx__dsos_dh (atmosphere_speed_of_sound mission_flight_path_angle atmosphere_mach : ℝ) : ℝ :=
  (((tas atmosphere_speed_of_sound atmosphere_mach) ^ 2) * (sgam mission_flight_path_angle)) /
    atmosphere_speed_of_sound

/-- Partial of `dtas_dt_approx` with respect to `mission_flight_path_angle` as set by `UnsteadySolvedFlightConditions`, aviary/mission/solved_two_dof/ode/unsteady_solved_flight_conditions.py:427 -/
noncomputable def J_dtas_dt_approx__mission_flight_path_angle (atmosphere_speed_of_sound mission_flight_path_angle atmosphere_mach dmach_dr dsos_dh : ℝ) : ℝ :=
  ((((-(tas atmosphere_speed_of_sound atmosphere_mach)) * (sgam mission_flight_path_angle)) *
    atmosphere_speed_of_sound) * dmach_dr) + (((((tas atmosphere_speed_of_sound atmosphere_mach)
    ^ 2) * (cgam mission_flight_path_angle)) / atmosphere_speed_of_sound) * dsos_dh)

theorem d_mission_velocity__atmosphere_speed_of_sound (atmosphere_speed_of_sound atmosphere_mach :
    ℝ)  :
    HasDerivAt (fun t => out_mission_velocity t atmosphere_mach) (J_mission_velocity__atmosphere_speed_of_sound atmosphere_mach) atmosphere_speed_of_sound := by
  simp only [out_mission_velocity, J_mission_velocity__atmosphere_speed_of_sound, tas]
  (apply hasDerivAt_of_eq; on_goal 1 => (repeat' comp_step))
  all_goals try comp_side
  all_goals try simp only [mul_zero, zero_mul, add_zero, zero_add, sub_zero, zero_sub, mul_one, one_mul]
  all_goals try push_cast
  all_goals comp_eq

theorem d_mission_velocity__atmosphere_mach (atmosphere_speed_of_sound atmosphere_mach : ℝ)  :
    HasDerivAt (fun t => out_mission_velocity atmosphere_speed_of_sound t) (J_mission_velocity__atmosphere_mach atmosphere_speed_of_sound) atmosphere_mach := by
  simp only [out_mission_velocity, J_mission_velocity__atmosphere_mach, tas]
  (apply hasDerivAt_of_eq; on_goal 1 => (repeat' comp_step))
  all_goals try comp_side
  all_goals try simp only [mul_zero, zero_mul, add_zero, zero_add, sub_zero, zero_sub, mul_one, one_mul]
  all_goals try push_cast
  all_goals comp_eq

theorem d_eas__atmosphere_density (sea_level_density atmosphere_density atmosphere_speed_of_sound
    atmosphere_mach : ℝ) (h0 : 0 < sea_level_density) (h1 : 0 < atmosphere_density) :
    HasDerivAt (fun t => out_eas sea_level_density t atmosphere_speed_of_sound atmosphere_mach) (J_eas__atmosphere_density sea_level_density atmosphere_density atmosphere_speed_of_sound atmosphere_mach) atmosphere_density := by
  have e0 : ∀ x : ℝ, 0 < x → x ^ ((-(1 / 2)) : ℝ) = x ^ ((1 / 2) : ℝ) / x ^ 1 := fun x hx => rpow_down hx 1 (by norm_num)
  simp only [out_eas, J_eas__atmosphere_density, sqrt_rho_rho_sl, tas, sqrt_eq_rpow]
  (apply hasDerivAt_of_eq; on_goal 1 => (repeat' comp_step))
  all_goals try comp_side
  all_goals try simp (disch := first | assumption | positivity) only [mul_rpow, div_rpow, e0, div_mul_eq_div_div, div_half, inv_half]
  all_goals try simp only [mul_zero, zero_mul, add_zero, zero_add, sub_zero, zero_sub, mul_one, one_mul]
  all_goals try push_cast
  all_goals comp_eq

theorem d_eas__atmosphere_speed_of_sound (sea_level_density atmosphere_density
    atmosphere_speed_of_sound atmosphere_mach : ℝ) (h0 : 0 < sea_level_density) (h1 : 0 <
    atmosphere_density) :
    HasDerivAt (fun t => out_eas sea_level_density atmosphere_density t atmosphere_mach) (J_eas__atmosphere_speed_of_sound sea_level_density atmosphere_density atmosphere_mach) atmosphere_speed_of_sound := by
  simp only [out_eas, J_eas__atmosphere_speed_of_sound, sqrt_rho_rho_sl, tas, sqrt_eq_rpow]
  (apply hasDerivAt_of_eq; on_goal 1 => (repeat' comp_step))
  all_goals try comp_side
  all_goals try simp (disch := first | assumption | positivity) only [div_mul_eq_div_div, div_half, inv_half]
  all_goals try simp only [mul_zero, zero_mul, add_zero, zero_add, sub_zero, zero_sub, mul_one, one_mul]
  all_goals try push_cast
  all_goals comp_eq

theorem d_eas__atmosphere_mach (sea_level_density atmosphere_density atmosphere_speed_of_sound
    atmosphere_mach : ℝ) (h0 : 0 < sea_level_density) (h1 : 0 < atmosphere_density) :
    HasDerivAt (fun t => out_eas sea_level_density atmosphere_density atmosphere_speed_of_sound t) (J_eas__atmosphere_mach sea_level_density atmosphere_density atmosphere_speed_of_sound) atmosphere_mach := by
  simp only [out_eas, J_eas__atmosphere_mach, sqrt_rho_rho_sl, tas, sqrt_eq_rpow]
  (apply hasDerivAt_of_eq; on_goal 1 => (repeat' comp_step))
  all_goals try comp_side
  all_goals try simp (disch := first | assumption | positivity) only [div_mul_eq_div_div, div_half, inv_half]
  all_goals try simp only [mul_zero, zero_mul, add_zero, zero_add, sub_zero, zero_sub, mul_one, one_mul]
  all_goals try push_cast
  all_goals comp_eq

theorem d_dtas_dt_approx__mission_flight_path_angle (atmosphere_speed_of_sound
    mission_flight_path_angle atmosphere_mach dmach_dr dsos_dh : ℝ) (h0 : 0 <
    atmosphere_speed_of_sound) :
    HasDerivAt (fun t => out_dtas_dt_approx atmosphere_speed_of_sound t atmosphere_mach dmach_dr dsos_dh) (J_dtas_dt_approx__mission_flight_path_angle atmosphere_speed_of_sound mission_flight_path_angle atmosphere_mach dmach_dr dsos_dh) mission_flight_path_angle := by
  simp only [out_dtas_dt_approx, J_dtas_dt_approx__mission_flight_path_angle, dsos_dt_approx, sgam, dmach_dt_approx, cgam, tas]
  (apply hasDerivAt_of_eq; on_goal 1 => (repeat' comp_step))
  all_goals try comp_side
  all_goals try simp only [mul_zero, zero_mul, add_zero, zero_add, sub_zero, zero_sub, mul_one, one_mul]
  all_goals try push_cast
  all_goals comp_eq

theorem d_dtas_dt_approx__dmach_dr (atmosphere_speed_of_sound mission_flight_path_angle
    atmosphere_mach dmach_dr dsos_dh : ℝ) (h0 : 0 < atmosphere_speed_of_sound) :
    HasDerivAt (fun t => out_dtas_dt_approx atmosphere_speed_of_sound mission_flight_path_angle atmosphere_mach t dsos_dh) (J_dtas_dt_approx__dmach_dr atmosphere_speed_of_sound mission_flight_path_angle atmosphere_mach) dmach_dr := by
  simp only [out_dtas_dt_approx, J_dtas_dt_approx__dmach_dr, dsos_dt_approx, sgam, dmach_dt_approx, cgam, tas]
  (apply hasDerivAt_of_eq; on_goal 1 => (repeat' comp_step))
  all_goals try comp_side
  all_goals try simp only [mul_zero, zero_mul, add_zero, zero_add, sub_zero, zero_sub, mul_one, one_mul]
  all_goals try push_cast
  all_goals comp_eq

theorem d_dtas_dt_approx__dsos_dh (atmosphere_speed_of_sound mission_flight_path_angle
    atmosphere_mach dmach_dr dsos_dh : ℝ) (h0 : 0 < atmosphere_speed_of_sound) :
    HasDerivAt (fun t => out_dtas_dt_approx atmosphere_speed_of_sound mission_flight_path_angle atmosphere_mach dmach_dr t) (J_dtas_dt_approx__dsos_dh atmosphere_speed_of_sound mission_flight_path_angle atmosphere_mach) dsos_dh := by
  simp only [out_dtas_dt_approx, J_dtas_dt_approx__dsos_dh, dsos_dt_approx, sgam, dmach_dt_approx, cgam, tas]
  (apply hasDerivAt_of_eq; on_goal 1 => (repeat' comp_step))
  all_goals try comp_side
  all_goals try simp only [mul_zero, zero_mul, add_zero, zero_add, sub_zero, zero_sub, mul_one, one_mul]
  all_goals try push_cast
  all_goals comp_eq

theorem d_atmosphere_dynamic_pressure__atmosphere_density (atmosphere_density
    atmosphere_speed_of_sound atmosphere_mach : ℝ)  :
    HasDerivAt (fun t => out_atmosphere_dynamic_pressure t atmosphere_speed_of_sound atmosphere_mach) (J_atmosphere_dynamic_pressure__atmosphere_density atmosphere_speed_of_sound atmosphere_mach) atmosphere_density := by
  simp only [out_atmosphere_dynamic_pressure, J_atmosphere_dynamic_pressure__atmosphere_density, tas]
  (apply hasDerivAt_of_eq; on_goal 1 => (repeat' comp_step))
  all_goals try comp_side
  all_goals try simp only [mul_zero, zero_mul, add_zero, zero_add, sub_zero, zero_sub, mul_one, one_mul]
  all_goals try push_cast
  all_goals comp_eq

theorem d_atmosphere_dynamic_pressure__atmosphere_speed_of_sound (atmosphere_density
    atmosphere_speed_of_sound atmosphere_mach : ℝ)  :
    HasDerivAt (fun t => out_atmosphere_dynamic_pressure atmosphere_density t atmosphere_mach) (J_atmosphere_dynamic_pressure__atmosphere_speed_of_sound atmosphere_density atmosphere_speed_of_sound atmosphere_mach) atmosphere_speed_of_sound := by
  simp only [out_atmosphere_dynamic_pressure, J_atmosphere_dynamic_pressure__atmosphere_speed_of_sound, tas]
  (apply hasDerivAt_of_eq; on_goal 1 => (repeat' comp_step))
  all_goals try comp_side
  all_goals try simp only [mul_zero, zero_mul, add_zero, zero_add, sub_zero, zero_sub, mul_one, one_mul]
  all_goals try push_cast
  all_goals comp_eq

theorem d_atmosphere_dynamic_pressure__atmosphere_mach (atmosphere_density
    atmosphere_speed_of_sound atmosphere_mach : ℝ)  :
    HasDerivAt (fun t => out_atmosphere_dynamic_pressure atmosphere_density atmosphere_speed_of_sound t) (J_atmosphere_dynamic_pressure__atmosphere_mach atmosphere_density atmosphere_speed_of_sound atmosphere_mach) atmosphere_mach := by
  simp only [out_atmosphere_dynamic_pressure, J_atmosphere_dynamic_pressure__atmosphere_mach, tas]
  (apply hasDerivAt_of_eq; on_goal 1 => (repeat' comp_step))
  all_goals try comp_side
  all_goals try simp only [mul_zero, zero_mul, add_zero, zero_add, sub_zero, zero_sub, mul_one, one_mul]
  all_goals try push_cast
  all_goals comp_eq

/-- Partial derivatives of `UnsteadySolvedFlightConditions` that are proved correct (the rest is listed in the header). -/
theorem partials_partial (sea_level_density atmosphere_density atmosphere_speed_of_sound
    mission_flight_path_angle atmosphere_mach dmach_dr dsos_dh : ℝ) (h0 : 0 < sea_level_density)
    (h1 : 0 < atmosphere_density) (h2 : 0 < atmosphere_speed_of_sound) :
    HasDerivAt (fun t => out_mission_velocity t atmosphere_mach)
      (J_mission_velocity__atmosphere_speed_of_sound atmosphere_mach) atmosphere_speed_of_sound ∧
    HasDerivAt (fun t => out_mission_velocity atmosphere_speed_of_sound t)
      (J_mission_velocity__atmosphere_mach atmosphere_speed_of_sound) atmosphere_mach ∧
    HasDerivAt (fun t => out_eas sea_level_density t atmosphere_speed_of_sound atmosphere_mach)
      (J_eas__atmosphere_density sea_level_density atmosphere_density atmosphere_speed_of_sound
      atmosphere_mach) atmosphere_density ∧
    HasDerivAt (fun t => out_eas sea_level_density atmosphere_density t atmosphere_mach)
      (J_eas__atmosphere_speed_of_sound sea_level_density atmosphere_density atmosphere_mach)
      atmosphere_speed_of_sound ∧
    HasDerivAt (fun t => out_eas sea_level_density atmosphere_density atmosphere_speed_of_sound t)
      (J_eas__atmosphere_mach sea_level_density atmosphere_density atmosphere_speed_of_sound)
      atmosphere_mach ∧
    HasDerivAt (fun t => out_dtas_dt_approx atmosphere_speed_of_sound t atmosphere_mach dmach_dr
      dsos_dh) (J_dtas_dt_approx__mission_flight_path_angle atmosphere_speed_of_sound
      mission_flight_path_angle atmosphere_mach dmach_dr dsos_dh) mission_flight_path_angle ∧
    HasDerivAt (fun t => out_dtas_dt_approx atmosphere_speed_of_sound mission_flight_path_angle
      atmosphere_mach t dsos_dh) (J_dtas_dt_approx__dmach_dr atmosphere_speed_of_sound
      mission_flight_path_angle atmosphere_mach) dmach_dr ∧
    HasDerivAt (fun t => out_dtas_dt_approx atmosphere_speed_of_sound mission_flight_path_angle
      atmosphere_mach dmach_dr t) (J_dtas_dt_approx__dsos_dh atmosphere_speed_of_sound
      mission_flight_path_angle atmosphere_mach) dsos_dh ∧
    HasDerivAt (fun t => out_atmosphere_dynamic_pressure t atmosphere_speed_of_sound atmosphere_mach)
      (J_atmosphere_dynamic_pressure__atmosphere_density atmosphere_speed_of_sound
      atmosphere_mach) atmosphere_density ∧
    HasDerivAt (fun t => out_atmosphere_dynamic_pressure atmosphere_density t atmosphere_mach)
      (J_atmosphere_dynamic_pressure__atmosphere_speed_of_sound atmosphere_density
      atmosphere_speed_of_sound atmosphere_mach) atmosphere_speed_of_sound ∧
    HasDerivAt (fun t => out_atmosphere_dynamic_pressure atmosphere_density atmosphere_speed_of_sound
      t) (J_atmosphere_dynamic_pressure__atmosphere_mach atmosphere_density
      atmosphere_speed_of_sound atmosphere_mach) atmosphere_mach :=
  ⟨d_mission_velocity__atmosphere_speed_of_sound _ _, d_mission_velocity__atmosphere_mach _ _,
    d_eas__atmosphere_density _ _ _ _ h0 h1, d_eas__atmosphere_speed_of_sound _ _ _ _ h0 h1,
    d_eas__atmosphere_mach _ _ _ _ h0 h1, d_dtas_dt_approx__mission_flight_path_angle _ _ _ _ _
    h2, d_dtas_dt_approx__dmach_dr _ _ _ _ _ h2, d_dtas_dt_approx__dsos_dh _ _ _ _ _ h2,
    d_atmosphere_dynamic_pressure__atmosphere_density _ _ _,
    d_atmosphere_dynamic_pressure__atmosphere_speed_of_sound _ _ _,
    d_atmosphere_dynamic_pressure__atmosphere_mach _ _ _⟩

example : ∃ sea_level_density atmosphere_density atmosphere_speed_of_sound
      mission_flight_path_angle atmosphere_mach dmach_dr dsos_dh : ℝ,
      0 < sea_level_density ∧
      0 < atmosphere_density ∧
      0 < atmosphere_speed_of_sound :=
  ⟨1, 1, 1, 0, 0, 0, 0, by comp_example, by comp_example, by comp_example⟩

/-- The derivative of output `dtas_dt_approx` with respect to `atmosphere_mach`. -/
noncomputable def D_dtas_dt_approx__atmosphere_mach (atmosphere_speed_of_sound mission_flight_path_angle atmosphere_mach dmach_dr dsos_dh : ℝ) : ℝ :=
  (((dmach_dr * atmosphere_speed_of_sound) * (cgam mission_flight_path_angle)) *
    atmosphere_speed_of_sound) + (((((dsos_dh * atmosphere_speed_of_sound) * (sgam
    mission_flight_path_angle)) * (tas atmosphere_speed_of_sound atmosphere_mach)) +
    ((dsos_dt_approx atmosphere_speed_of_sound mission_flight_path_angle atmosphere_mach
    dsos_dh) * atmosphere_speed_of_sound)) / atmosphere_speed_of_sound)

theorem true_d_dtas_dt_approx__atmosphere_mach (atmosphere_speed_of_sound
    mission_flight_path_angle atmosphere_mach dmach_dr dsos_dh : ℝ) (h0 : 0 <
    atmosphere_speed_of_sound) :
    HasDerivAt (fun t => out_dtas_dt_approx atmosphere_speed_of_sound mission_flight_path_angle t
      dmach_dr dsos_dh) (D_dtas_dt_approx__atmosphere_mach atmosphere_speed_of_sound
      mission_flight_path_angle atmosphere_mach dmach_dr dsos_dh) atmosphere_mach := by
  simp only [out_dtas_dt_approx, D_dtas_dt_approx__atmosphere_mach, dsos_dt_approx, sgam, dmach_dt_approx, cgam, tas]
  (apply hasDerivAt_of_eq; on_goal 1 => (repeat' comp_step))
  all_goals try comp_side
  all_goals try simp only [mul_zero, zero_mul, add_zero, zero_add, sub_zero, zero_sub, mul_one, one_mul]
  all_goals try push_cast
  all_goals comp_eq

/-- No entry is set for `dtas_dt_approx` by `atmosphere_mach` (so it is zero), but the derivative does not vanish. -/
theorem J_dtas_dt_approx__atmosphere_mach_violated : ∃ atmosphere_speed_of_sound
      mission_flight_path_angle atmosphere_mach dmach_dr dsos_dh : ℝ,
      0 < atmosphere_speed_of_sound ∧
      ¬ HasDerivAt (fun t => out_dtas_dt_approx atmosphere_speed_of_sound mission_flight_path_angle t
        dmach_dr dsos_dh) 0 atmosphere_mach := by
  refine ⟨1, 0, 0, 1, 0, by comp_example, fun h => ?_⟩
  have e := h.unique (true_d_dtas_dt_approx__atmosphere_mach (1) (0) (0) (1) (0) (by
    comp_example))
  norm_num [D_dtas_dt_approx__atmosphere_mach, dsos_dt_approx, tas, sgam, cgam] at e

/-- The derivative of output `dtas_dt_approx` with respect to `atmosphere_speed_of_sound`. -/
noncomputable def D_dtas_dt_approx__atmosphere_speed_of_sound (atmosphere_speed_of_sound mission_flight_path_angle atmosphere_mach dmach_dr dsos_dh : ℝ) : ℝ :=
  ((((dmach_dr * atmosphere_mach) * (cgam mission_flight_path_angle)) *
    atmosphere_speed_of_sound) + (dmach_dt_approx atmosphere_speed_of_sound
    mission_flight_path_angle atmosphere_mach dmach_dr)) + (((((((dsos_dh * atmosphere_mach) *
    (sgam mission_flight_path_angle)) * (tas atmosphere_speed_of_sound atmosphere_mach)) +
    ((dsos_dt_approx atmosphere_speed_of_sound mission_flight_path_angle atmosphere_mach
    dsos_dh) * atmosphere_mach)) * atmosphere_speed_of_sound) - ((dsos_dt_approx
    atmosphere_speed_of_sound mission_flight_path_angle atmosphere_mach dsos_dh) * (tas
    atmosphere_speed_of_sound atmosphere_mach))) / (atmosphere_speed_of_sound ^ 2))

theorem true_d_dtas_dt_approx__atmosphere_speed_of_sound (atmosphere_speed_of_sound
    mission_flight_path_angle atmosphere_mach dmach_dr dsos_dh : ℝ) (h0 : 0 <
    atmosphere_speed_of_sound) :
    HasDerivAt (fun t => out_dtas_dt_approx t mission_flight_path_angle atmosphere_mach dmach_dr
      dsos_dh) (D_dtas_dt_approx__atmosphere_speed_of_sound atmosphere_speed_of_sound
      mission_flight_path_angle atmosphere_mach dmach_dr dsos_dh) atmosphere_speed_of_sound := by
  simp only [out_dtas_dt_approx, D_dtas_dt_approx__atmosphere_speed_of_sound, dsos_dt_approx, sgam, dmach_dt_approx, cgam, tas]
  (apply hasDerivAt_of_eq; on_goal 1 => (repeat' comp_step))
  all_goals try comp_side
  all_goals try simp only [mul_zero, zero_mul, add_zero, zero_add, sub_zero, zero_sub, mul_one, one_mul]
  all_goals try push_cast
  all_goals comp_eq

/-- No entry is set for `dtas_dt_approx` by `atmosphere_speed_of_sound` (so it is zero), but the derivative does not vanish. -/
theorem J_dtas_dt_approx__atmosphere_speed_of_sound_violated : ∃ atmosphere_speed_of_sound
      mission_flight_path_angle atmosphere_mach dmach_dr dsos_dh : ℝ,
      0 < atmosphere_speed_of_sound ∧
      ¬ HasDerivAt (fun t => out_dtas_dt_approx t mission_flight_path_angle atmosphere_mach dmach_dr
        dsos_dh) 0 atmosphere_speed_of_sound := by
  refine ⟨1, 0, 1, 1, 1, by comp_example, fun h => ?_⟩
  have e := h.unique (true_d_dtas_dt_approx__atmosphere_speed_of_sound (1) (0) (1) (1) (1) (by
    comp_example))
  norm_num [D_dtas_dt_approx__atmosphere_speed_of_sound, dsos_dt_approx, sgam, dmach_dt_approx,
    tas, cgam] at e

end Verif.Comp.MissionSolvedTwoDofOdeUnsteadySolvedFlightConditions.UnsteadySolvedFlightConditions_no_groundroll_otherinputspeedtype

