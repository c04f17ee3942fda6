import Verif.Lemmas.CompDeriv

/-! # Partial derivatives of the components of `aviary/mission/solved_two_dof/ode/unsteady_solved_eom.py`

One node of a vector component is modelled over the real numbers.  Each option that selects a
branch is fixed, one namespace per choice.  `out_x` is the output `x`, `J_x__y` the entry that
`compute_partials` (or `declare_partials` with `val`) assigns, `d_x__y` the proof that the entry is
the derivative.  Inputs an output does not take as argument have no influence on it. -/

set_option linter.all false

namespace Verif.Comp.MissionSolvedTwoDofOdeUnsteadySolvedEom.UnsteadySolvedEOM_groundroll
open Real

/-- aviary/mission/solved_two_dof/ode/unsteady_solved_eom.py:224 -/
noncomputable def weight (mass : ℝ) : ℝ := mass * (8896443230521 / 2000000000000)

/-- aviary/mission/solved_two_dof/ode/unsteady_solved_eom.py:232 -/
noncomputable def m (gravity mass : ℝ) : ℝ := (weight mass) / gravity

/-- aviary/mission/solved_two_dof/ode/unsteady_solved_eom.py:243 -/
noncomputable def alpha_i (vehicle_angle_of_attack wing_incidence : ℝ) : ℝ :=
  vehicle_angle_of_attack - wing_incidence

/-- aviary/mission/solved_two_dof/ode/unsteady_solved_eom.py:245 -/
noncomputable def cgam : ℝ := cos 0

/-- aviary/mission/solved_two_dof/ode/unsteady_solved_eom.py:246 -/
noncomputable def sgam : ℝ := sin 0

/-- aviary/mission/solved_two_dof/ode/unsteady_solved_eom.py:248 -/
noncomputable def calpha_i (vehicle_angle_of_attack wing_incidence : ℝ) : ℝ :=
  cos (alpha_i vehicle_angle_of_attack wing_incidence)

/-- aviary/mission/solved_two_dof/ode/unsteady_solved_eom.py:249 -/
noncomputable def salpha_i (vehicle_angle_of_attack wing_incidence : ℝ) : ℝ :=
  sin (alpha_i vehicle_angle_of_attack wing_incidence)

/-- aviary/mission/solved_two_dof/ode/unsteady_solved_eom.py:251 -/
noncomputable def tcai (vehicle_propulsion_thrust_total vehicle_angle_of_attack wing_incidence : ℝ) : ℝ :=
  vehicle_propulsion_thrust_total * (calpha_i vehicle_angle_of_attack wing_incidence)

/-- aviary/mission/solved_two_dof/ode/unsteady_solved_eom.py:252 -/
noncomputable def tsai (vehicle_propulsion_thrust_total vehicle_angle_of_attack wing_incidence : ℝ) : ℝ :=
  vehicle_propulsion_thrust_total * (salpha_i vehicle_angle_of_attack wing_incidence)

/-- aviary/mission/solved_two_dof/ode/unsteady_solved_eom.py:254 -/
noncomputable def dr_dt (mission_velocity : ℝ) : ℝ := mission_velocity * cgam

/-- aviary/mission/solved_two_dof/ode/unsteady_solved_eom.py:256 -/
noncomputable def normal_force (vehicle_propulsion_thrust_total mass vehicle_lift vehicle_angle_of_attack wing_incidence : ℝ) : ℝ :=
  ((weight mass) - vehicle_lift) - (tsai vehicle_propulsion_thrust_total vehicle_angle_of_attack
    wing_incidence)

/-- aviary/mission/solved_two_dof/ode/unsteady_solved_eom.py:258 -/
noncomputable def load_factor (vehicle_propulsion_thrust_total mass vehicle_lift vehicle_angle_of_attack wing_incidence : ℝ) : ℝ :=
  (vehicle_lift + (tsai vehicle_propulsion_thrust_total vehicle_angle_of_attack wing_incidence))
    / ((weight mass) * cgam)

/-- aviary/mission/solved_two_dof/ode/unsteady_solved_eom.py:319 -/
noncomputable def _f (vehicle_propulsion_thrust_total mass vehicle_drag vehicle_lift vehicle_angle_of_attack wing_incidence takeoff_rolling_friction_coefficient : ℝ) : ℝ :=
  (((tcai vehicle_propulsion_thrust_total vehicle_angle_of_attack wing_incidence) -
    vehicle_drag) - ((weight mass) * sgam)) - (takeoff_rolling_friction_coefficient * (((weight
    mass) - vehicle_lift) - (tsai vehicle_propulsion_thrust_total vehicle_angle_of_attack
    wing_incidence)))

/-- Output `dt_dr` of `UnsteadySolvedEOM.compute`, aviary/mission/solved_two_dof/ode/unsteady_solved_eom.py:260 -/
noncomputable def out_dt_dr (mission_velocity : ℝ) : ℝ := 1 / (dr_dt mission_velocity)

/-- Output `normal_force` of `UnsteadySolvedEOM.compute`, aviary/mission/solved_two_dof/ode/unsteady_solved_eom.py:262 -/
noncomputable def out_normal_force (vehicle_propulsion_thrust_total mass vehicle_lift vehicle_angle_of_attack wing_incidence : ℝ) : ℝ :=
  normal_force vehicle_propulsion_thrust_total mass vehicle_lift vehicle_angle_of_attack
    wing_incidence

/-- Output `dtas_dt` of `UnsteadySolvedEOM.compute`, aviary/mission/solved_two_dof/ode/unsteady_solved_eom.py:264 -/
noncomputable def out_dtas_dt (gravity vehicle_propulsion_thrust_total mass vehicle_drag vehicle_lift vehicle_angle_of_attack wing_incidence takeoff_rolling_friction_coefficient : ℝ) : ℝ :=
  ((((tcai vehicle_propulsion_thrust_total vehicle_angle_of_attack wing_incidence) -
    vehicle_drag) - ((weight mass) * sgam)) - (takeoff_rolling_friction_coefficient *
    (normal_force vehicle_propulsion_thrust_total mass vehicle_lift vehicle_angle_of_attack
    wing_incidence))) / (m gravity mass)

/-- Output `fuselage_pitch` of `UnsteadySolvedEOM.compute`, aviary/mission/solved_two_dof/ode/unsteady_solved_eom.py:266 -/
noncomputable def out_fuselage_pitch (vehicle_angle_of_attack wing_incidence : ℝ) : ℝ :=
  (0 - wing_incidence) + vehicle_angle_of_attack

/-- Output `load_factor` of `UnsteadySolvedEOM.compute`, aviary/mission/solved_two_dof/ode/unsteady_solved_eom.py:268 -/
noncomputable def out_load_factor (vehicle_propulsion_thrust_total mass vehicle_lift vehicle_angle_of_attack wing_incidence : ℝ) : ℝ :=
  load_factor vehicle_propulsion_thrust_total mass vehicle_lift vehicle_angle_of_attack
    wing_incidence

/-- Partial of `normal_force` with respect to `mass` as set by `UnsteadySolvedEOM`, aviary/mission/solved_two_dof/ode/unsteady_solved_eom.py:111 -/
noncomputable def J_normal_force__mass : ℝ := 8896443230521 / 2000000000000

/-- Partial of `normal_force` with respect to `vehicle_lift` as set by `UnsteadySolvedEOM`, aviary/mission/solved_two_dof/ode/unsteady_solved_eom.py:115 -/
noncomputable def J_normal_force__vehicle_lift : ℝ := -1

/-- Partial of `fuselage_pitch` with respect to `vehicle_angle_of_attack` as set by `UnsteadySolvedEOM`, aviary/mission/solved_two_dof/ode/unsteady_solved_eom.py:139 -/
noncomputable def J_fuselage_pitch__vehicle_angle_of_attack : ℝ := 1

/-- Partial of `fuselage_pitch` with respect to `wing_incidence` as set by `UnsteadySolvedEOM`, aviary/mission/solved_two_dof/ode/unsteady_solved_eom.py:147 -/
noncomputable def J_fuselage_pitch__wing_incidence : ℝ := -1

/-- Partial of `dt_dr` with respect to `mission_velocity` as set by `UnsteadySolvedEOM`, aviary/mission/solved_two_dof/ode/unsteady_solved_eom.py:321 -/
noncomputable def J_dt_dr__mission_velocity (mission_velocity : ℝ) : ℝ :=
  (-cgam) / ((dr_dt mission_velocity) ^ 2)

/-- Partial of `dtas_dt` with respect to `vehicle_propulsion_thrust_total` as set by `UnsteadySolvedEOM`, aviary/mission/solved_two_dof/ode/unsteady_solved_eom.py:323 -/
noncomputable def J_dtas_dt__vehicle_propulsion_thrust_total (gravity mass vehicle_angle_of_attack wing_incidence takeoff_rolling_friction_coefficient : ℝ) : ℝ :=
  ((calpha_i vehicle_angle_of_attack wing_incidence) / (m gravity mass)) + (((salpha_i
    vehicle_angle_of_attack wing_incidence) / (m gravity mass)) *
    takeoff_rolling_friction_coefficient)

/-- Partial of `dtas_dt` with respect to `vehicle_drag` as set by `UnsteadySolvedEOM`, aviary/mission/solved_two_dof/ode/unsteady_solved_eom.py:326 -/
noncomputable def J_dtas_dt__vehicle_drag (gravity mass : ℝ) : ℝ := (-1) / (m gravity mass)

/-- Partial of `dtas_dt` with respect to `mass` as set by `UnsteadySolvedEOM`, aviary/mission/solved_two_dof/ode/unsteady_solved_eom.py:328 -/
noncomputable def J_dtas_dt__mass (gravity vehicle_propulsion_thrust_total mass vehicle_drag vehicle_lift vehicle_angle_of_attack wing_incidence takeoff_rolling_friction_coefficient : ℝ) : ℝ :=
  (((8896443230521 / 2000000000000) * ((-sgam) - takeoff_rolling_friction_coefficient)) / (m
    gravity mass)) - ((_f vehicle_propulsion_thrust_total mass vehicle_drag vehicle_lift
    vehicle_angle_of_attack wing_incidence takeoff_rolling_friction_coefficient) / (((weight
    mass) / (8896443230521 / 2000000000000)) * (m gravity mass)))

/-- Partial of `dtas_dt` with respect to `vehicle_lift` as set by `UnsteadySolvedEOM`, aviary/mission/solved_two_dof/ode/unsteady_solved_eom.py:332 -/
noncomputable def J_dtas_dt__vehicle_lift (gravity mass takeoff_rolling_friction_coefficient : ℝ) : ℝ :=
  takeoff_rolling_friction_coefficient / (m gravity mass)

/-- Partial of `dtas_dt` with respect to `vehicle_angle_of_attack` as set by `UnsteadySolvedEOM`, aviary/mission/solved_two_dof/ode/unsteady_solved_eom.py:333 -/
noncomputable def J_dtas_dt__vehicle_angle_of_attack (gravity vehicle_propulsion_thrust_total mass vehicle_angle_of_attack wing_incidence takeoff_rolling_friction_coefficient : ℝ) : ℝ :=
  ((-(tsai vehicle_propulsion_thrust_total vehicle_angle_of_attack wing_incidence)) / (m gravity
    mass)) + ((takeoff_rolling_friction_coefficient * (tcai vehicle_propulsion_thrust_total
    vehicle_angle_of_attack wing_incidence)) / (m gravity mass))

/-- Partial of `dtas_dt` with respect to `wing_incidence` as set by `UnsteadySolvedEOM`, aviary/mission/solved_two_dof/ode/unsteady_solved_eom.py:334 -/
noncomputable def J_dtas_dt__wing_incidence (gravity vehicle_propulsion_thrust_total mass vehicle_angle_of_attack wing_incidence takeoff_rolling_friction_coefficient : ℝ) : ℝ :=
  ((tsai vehicle_propulsion_thrust_total vehicle_angle_of_attack wing_incidence) / (m gravity
    mass)) - ((takeoff_rolling_friction_coefficient * (tcai vehicle_propulsion_thrust_total
    vehicle_angle_of_attack wing_incidence)) / (m gravity mass))

/-- Partial of `normal_force` with respect to `vehicle_propulsion_thrust_total` as set by `UnsteadySolvedEOM`, aviary/mission/solved_two_dof/ode/unsteady_solved_eom.py:336 -/
noncomputable def J_normal_force__vehicle_propulsion_thrust_total (vehicle_angle_of_attack wing_incidence : ℝ) : ℝ :=
  -(salpha_i vehicle_angle_of_attack wing_incidence)

/-- Partial of `load_factor` with respect to `vehicle_lift` as set by `UnsteadySolvedEOM`, aviary/mission/solved_two_dof/ode/unsteady_solved_eom.py:338 -/
noncomputable def J_load_factor__vehicle_lift (mass : ℝ) : ℝ := 1 / ((weight mass) * cgam)

/-- Partial of `load_factor` with respect to `vehicle_propulsion_thrust_total` as set by `UnsteadySolvedEOM`, aviary/mission/solved_two_dof/ode/unsteady_solved_eom.py:339 -/
noncomputable def J_load_factor__vehicle_propulsion_thrust_total (mass vehicle_angle_of_attack wing_incidence : ℝ) : ℝ :=
  (salpha_i vehicle_angle_of_attack wing_incidence) / ((weight mass) * cgam)

/-- Partial of `load_factor` with respect to `mass` as set by `UnsteadySolvedEOM`, aviary/mission/solved_two_dof/ode/unsteady_solved_eom.py:342 -/
noncomputable def J_load_factor__mass (vehicle_propulsion_thrust_total mass vehicle_lift vehicle_angle_of_attack wing_incidence : ℝ) : ℝ :=
  (-(vehicle_lift + (tsai vehicle_propulsion_thrust_total vehicle_angle_of_attack
    wing_incidence))) / ((((weight mass) ^ 2) / (8896443230521 / 2000000000000)) * cgam)

/-- Partial of `normal_force` with respect to `vehicle_angle_of_attack` as set by `UnsteadySolvedEOM`, aviary/mission/solved_two_dof/ode/unsteady_solved_eom.py:346 -/
noncomputable def J_normal_force__vehicle_angle_of_attack (vehicle_propulsion_thrust_total vehicle_angle_of_attack wing_incidence : ℝ) : ℝ :=
  -(tcai vehicle_propulsion_thrust_total vehicle_angle_of_attack wing_incidence)

/-- Partial of `normal_force` with respect to `wing_incidence` as set by `UnsteadySolvedEOM`, aviary/mission/solved_two_dof/ode/unsteady_solved_eom.py:347 -/
noncomputable def J_normal_force__wing_incidence (vehicle_propulsion_thrust_total vehicle_angle_of_attack wing_incidence : ℝ) : ℝ :=
  tcai vehicle_propulsion_thrust_total vehicle_angle_of_attack wing_incidence

/-- Partial of `load_factor` with respect to `wing_incidence` as set by `UnsteadySolvedEOM`, aviary/mission/solved_two_dof/ode/unsteady_solved_eom.py:348 -/
noncomputable def J_load_factor__wing_incidence (vehicle_propulsion_thrust_total mass vehicle_angle_of_attack wing_incidence : ℝ) : ℝ :=
  (-(tcai vehicle_propulsion_thrust_total vehicle_angle_of_attack wing_incidence)) / ((weight
    mass) * cgam)

/-- Partial of `load_factor` with respect to `vehicle_angle_of_attack` as set by `UnsteadySolvedEOM`, aviary/mission/solved_two_dof/ode/unsteady_solved_eom.py:350 -/
noncomputable def J_load_factor__vehicle_angle_of_attack (vehicle_propulsion_thrust_total mass vehicle_angle_of_attack wing_incidence : ℝ) : ℝ :=
  (tcai vehicle_propulsion_thrust_total vehicle_angle_of_attack wing_incidence) / ((weight mass)
    * cgam)

/-- Partial of `dtas_dt` with respect to `takeoff_rolling_friction_coefficient` as set by `UnsteadySolvedEOM`, aviary/mission/solved_two_dof/ode/unsteady_solved_eom.py:382 -/
noncomputable def J_dtas_dt__takeoff_rolling_friction_coefficient (gravity vehicle_propulsion_thrust_total mass vehicle_lift vehicle_angle_of_attack wing_incidence : ℝ) : ℝ :=
  (-(((weight mass) - vehicle_lift) - (tsai vehicle_propulsion_thrust_total
    vehicle_angle_of_attack wing_incidence))) / (m gravity mass)

theorem d_dt_dr__mission_velocity (mission_velocity : ℝ) (h0 : 0 < mission_velocity) (h1 : cos 0 ≠
    0) :
    HasDerivAt (fun t => out_dt_dr t) (J_dt_dr__mission_velocity mission_velocity) mission_velocity := by
  simp only [out_dt_dr, J_dt_dr__mission_velocity, dr_dt, cgam]
  (apply hasDerivAt_of_eq; on_goal 1 => (repeat' comp_step))
  all_goals try comp_side
  all_goals try simp only [mul_zero, zero_mul, add_zero, zero_add, sub_zero, zero_sub, mul_one, one_mul]
  all_goals try push_cast
  all_goals comp_eq

theorem d_normal_force__vehicle_propulsion_thrust_total (vehicle_propulsion_thrust_total mass
    vehicle_lift vehicle_angle_of_attack wing_incidence : ℝ)  :
    HasDerivAt (fun t => out_normal_force t mass vehicle_lift vehicle_angle_of_attack wing_incidence) (J_normal_force__vehicle_propulsion_thrust_total vehicle_angle_of_attack wing_incidence) vehicle_propulsion_thrust_total := by
  simp only [out_normal_force, J_normal_force__vehicle_propulsion_thrust_total, normal_force, tsai, salpha_i, alpha_i, weight]
  (apply hasDerivAt_of_eq; on_goal 1 => (repeat' comp_step))
  all_goals try comp_side
  all_goals try simp only [mul_zero, zero_mul, add_zero, zero_add, sub_zero, zero_sub, mul_one, one_mul]
  all_goals try push_cast
  all_goals comp_eq

theorem d_normal_force__mass (vehicle_propulsion_thrust_total mass vehicle_lift
    vehicle_angle_of_attack wing_incidence : ℝ)  :
    HasDerivAt (fun t => out_normal_force vehicle_propulsion_thrust_total t vehicle_lift vehicle_angle_of_attack wing_incidence) (J_normal_force__mass) mass := by
  simp only [out_normal_force, J_normal_force__mass, normal_force, tsai, salpha_i, alpha_i, weight]
  (apply hasDerivAt_of_eq; on_goal 1 => (repeat' comp_step))
  all_goals try comp_side
  all_goals try simp only [mul_zero, zero_mul, add_zero, zero_add, sub_zero, zero_sub, mul_one, one_mul]
  all_goals try push_cast
  all_goals comp_eq

theorem d_normal_force__vehicle_lift (vehicle_propulsion_thrust_total mass vehicle_lift
    vehicle_angle_of_attack wing_incidence : ℝ)  :
    HasDerivAt (fun t => out_normal_force vehicle_propulsion_thrust_total mass t vehicle_angle_of_attack wing_incidence) (J_normal_force__vehicle_lift) vehicle_lift := by
  simp only [out_normal_force, J_normal_force__vehicle_lift, normal_force, tsai, salpha_i, alpha_i, weight]
  (apply hasDerivAt_of_eq; on_goal 1 => (repeat' comp_step))
  all_goals try comp_side
  all_goals try simp only [mul_zero, zero_mul, add_zero, zero_add, sub_zero, zero_sub, mul_one, one_mul]
  all_goals try push_cast
  all_goals comp_eq

theorem d_normal_force__vehicle_angle_of_attack (vehicle_propulsion_thrust_total mass vehicle_lift
    vehicle_angle_of_attack wing_incidence : ℝ)  :
    HasDerivAt (fun t => out_normal_force vehicle_propulsion_thrust_total mass vehicle_lift t wing_incidence) (J_normal_force__vehicle_angle_of_attack vehicle_propulsion_thrust_total vehicle_angle_of_attack wing_incidence) vehicle_angle_of_attack := by
  simp only [out_normal_force, J_normal_force__vehicle_angle_of_attack, tcai, calpha_i, normal_force, tsai, salpha_i, alpha_i, weight]
  (apply hasDerivAt_of_eq; on_goal 1 => (repeat' comp_step))
  all_goals try comp_side
  all_goals try simp only [mul_zero, zero_mul, add_zero, zero_add, sub_zero, zero_sub, mul_one, one_mul]
  all_goals try push_cast
  all_goals comp_eq

theorem d_normal_force__wing_incidence (vehicle_propulsion_thrust_total mass vehicle_lift
    vehicle_angle_of_attack wing_incidence : ℝ)  :
    HasDerivAt (fun t => out_normal_force vehicle_propulsion_thrust_total mass vehicle_lift vehicle_angle_of_attack t) (J_normal_force__wing_incidence vehicle_propulsion_thrust_total vehicle_angle_of_attack wing_incidence) wing_incidence := by
  simp only [out_normal_force, J_normal_force__wing_incidence, tcai, calpha_i, normal_force, tsai, salpha_i, alpha_i, weight]
  (apply hasDerivAt_of_eq; on_goal 1 => (repeat' comp_step))
  all_goals try comp_side
  all_goals try simp only [mul_zero, zero_mul, add_zero, zero_add, sub_zero, zero_sub, mul_one, one_mul]
  all_goals try push_cast
  all_goals comp_eq

theorem d_dtas_dt__vehicle_propulsion_thrust_total (gravity vehicle_propulsion_thrust_total mass
    vehicle_drag vehicle_lift vehicle_angle_of_attack wing_incidence
    takeoff_rolling_friction_coefficient : ℝ) (h0 : 0 < gravity) (h1 : 0 < mass) :
    HasDerivAt (fun t => out_dtas_dt gravity t mass vehicle_drag vehicle_lift vehicle_angle_of_attack wing_incidence takeoff_rolling_friction_coefficient) (J_dtas_dt__vehicle_propulsion_thrust_total gravity mass vehicle_angle_of_attack wing_incidence takeoff_rolling_friction_coefficient) vehicle_propulsion_thrust_total := by
  simp only [out_dtas_dt, J_dtas_dt__vehicle_propulsion_thrust_total, m, normal_force, tsai, salpha_i, sgam, weight, tcai, calpha_i, alpha_i]
  (apply hasDerivAt_of_eq; on_goal 1 => (repeat' comp_step))
  all_goals try comp_side
  all_goals try simp only [mul_zero, zero_mul, add_zero, zero_add, sub_zero, zero_sub, mul_one, one_mul]
  all_goals try push_cast
  all_goals comp_eq

theorem d_dtas_dt__mass (gravity vehicle_propulsion_thrust_total mass vehicle_drag vehicle_lift
    vehicle_angle_of_attack wing_incidence takeoff_rolling_friction_coefficient : ℝ) (h0 : 0 <
    gravity) (h1 : 0 < mass) :
    HasDerivAt (fun t => out_dtas_dt gravity vehicle_propulsion_thrust_total t vehicle_drag vehicle_lift vehicle_angle_of_attack wing_incidence takeoff_rolling_friction_coefficient) (J_dtas_dt__mass gravity vehicle_propulsion_thrust_total mass vehicle_drag vehicle_lift vehicle_angle_of_attack wing_incidence takeoff_rolling_friction_coefficient) mass := by
  simp only [out_dtas_dt, J_dtas_dt__mass, _f, m, normal_force, tsai, salpha_i, sgam, weight, tcai, calpha_i, alpha_i]
  (apply hasDerivAt_of_eq; on_goal 1 => (repeat' comp_step))
  all_goals try comp_side
  all_goals try simp only [mul_zero, zero_mul, add_zero, zero_add, sub_zero, zero_sub, mul_one, one_mul]
  all_goals try push_cast
  all_goals comp_eq

theorem d_dtas_dt__vehicle_drag (gravity vehicle_propulsion_thrust_total mass vehicle_drag
    vehicle_lift vehicle_angle_of_attack wing_incidence takeoff_rolling_friction_coefficient : ℝ)
    (h0 : 0 < gravity) (h1 : 0 < mass) :
    HasDerivAt (fun t => out_dtas_dt gravity vehicle_propulsion_thrust_total mass t vehicle_lift vehicle_angle_of_attack wing_incidence takeoff_rolling_friction_coefficient) (J_dtas_dt__vehicle_drag gravity mass) vehicle_drag := by
  simp only [out_dtas_dt, J_dtas_dt__vehicle_drag, m, normal_force, tsai, salpha_i, sgam, weight, tcai, calpha_i, alpha_i]
  (apply hasDerivAt_of_eq; on_goal 1 => (repeat' comp_step))
  all_goals try comp_side
  all_goals try simp only [mul_zero, zero_mul, add_zero, zero_add, sub_zero, zero_sub, mul_one, one_mul]
  all_goals try push_cast
  all_goals comp_eq

theorem d_dtas_dt__vehicle_lift (gravity vehicle_propulsion_thrust_total mass vehicle_drag
    vehicle_lift vehicle_angle_of_attack wing_incidence takeoff_rolling_friction_coefficient : ℝ)
    (h0 : 0 < gravity) (h1 : 0 < mass) :
    HasDerivAt (fun t => out_dtas_dt gravity vehicle_propulsion_thrust_total mass vehicle_drag t vehicle_angle_of_attack wing_incidence takeoff_rolling_friction_coefficient) (J_dtas_dt__vehicle_lift gravity mass takeoff_rolling_friction_coefficient) vehicle_lift := by
  simp only [out_dtas_dt, J_dtas_dt__vehicle_lift, m, normal_force, tsai, salpha_i, sgam, weight, tcai, calpha_i, alpha_i]
  (apply hasDerivAt_of_eq; on_goal 1 => (repeat' comp_step))
  all_goals try comp_side
  all_goals try simp only [mul_zero, zero_mul, add_zero, zero_add, sub_zero, zero_sub, mul_one, one_mul]
  all_goals try push_cast
  all_goals comp_eq

theorem d_dtas_dt__vehicle_angle_of_attack (gravity vehicle_propulsion_thrust_total mass
    vehicle_drag vehicle_lift vehicle_angle_of_attack wing_incidence
    takeoff_rolling_friction_coefficient : ℝ) (h0 : 0 < gravity) (h1 : 0 < mass) :
    HasDerivAt (fun t => out_dtas_dt gravity vehicle_propulsion_thrust_total mass vehicle_drag vehicle_lift t wing_incidence takeoff_rolling_friction_coefficient) (J_dtas_dt__vehicle_angle_of_attack gravity vehicle_propulsion_thrust_total mass vehicle_angle_of_attack wing_incidence takeoff_rolling_friction_coefficient) vehicle_angle_of_attack := by
  simp only [out_dtas_dt, J_dtas_dt__vehicle_angle_of_attack, m, normal_force, tsai, salpha_i, sgam, weight, tcai, calpha_i, alpha_i]
  (apply hasDerivAt_of_eq; on_goal 1 => (repeat' comp_step))
  all_goals try comp_side
  all_goals try simp only [mul_zero, zero_mul, add_zero, zero_add, sub_zero, zero_sub, mul_one, one_mul]
  all_goals try push_cast
  all_goals comp_eq

theorem d_dtas_dt__wing_incidence (gravity vehicle_propulsion_thrust_total mass vehicle_drag
    vehicle_lift vehicle_angle_of_attack wing_incidence takeoff_rolling_friction_coefficient : ℝ)
    (h0 : 0 < gravity) (h1 : 0 < mass) :
    HasDerivAt (fun t => out_dtas_dt gravity vehicle_propulsion_thrust_total mass vehicle_drag vehicle_lift vehicle_angle_of_attack t takeoff_rolling_friction_coefficient) (J_dtas_dt__wing_incidence gravity vehicle_propulsion_thrust_total mass vehicle_angle_of_attack wing_incidence takeoff_rolling_friction_coefficient) wing_incidence := by
  simp only [out_dtas_dt, J_dtas_dt__wing_incidence, m, normal_force, tsai, salpha_i, sgam, weight, tcai, calpha_i, alpha_i]
  (apply hasDerivAt_of_eq; on_goal 1 => (repeat' comp_step))
  all_goals try comp_side
  all_goals try simp only [mul_zero, zero_mul, add_zero, zero_add, sub_zero, zero_sub, mul_one, one_mul]
  all_goals try push_cast
  all_goals comp_eq

theorem d_dtas_dt__takeoff_rolling_friction_coefficient (gravity vehicle_propulsion_thrust_total
    mass vehicle_drag vehicle_lift vehicle_angle_of_attack wing_incidence
    takeoff_rolling_friction_coefficient : ℝ) (h0 : 0 < gravity) (h1 : 0 < mass) :
    HasDerivAt (fun t => out_dtas_dt gravity vehicle_propulsion_thrust_total mass vehicle_drag vehicle_lift vehicle_angle_of_attack wing_incidence t) (J_dtas_dt__takeoff_rolling_friction_coefficient gravity vehicle_propulsion_thrust_total mass vehicle_lift vehicle_angle_of_attack wing_incidence) takeoff_rolling_friction_coefficient := by
  simp only [out_dtas_dt, J_dtas_dt__takeoff_rolling_friction_coefficient, m, normal_force, tsai, salpha_i, sgam, weight, tcai, calpha_i, alpha_i]
  (apply hasDerivAt_of_eq; on_goal 1 => (repeat' comp_step))
  all_goals try comp_side
  all_goals try simp only [mul_zero, zero_mul, add_zero, zero_add, sub_zero, zero_sub, mul_one, one_mul]
  all_goals try push_cast
  all_goals comp_eq

theorem d_fuselage_pitch__vehicle_angle_of_attack (vehicle_angle_of_attack wing_incidence : ℝ)  :
    HasDerivAt (fun t => out_fuselage_pitch t wing_incidence) (J_fuselage_pitch__vehicle_angle_of_attack) vehicle_angle_of_attack := by
  simp only [out_fuselage_pitch, J_fuselage_pitch__vehicle_angle_of_attack]
  (apply hasDerivAt_of_eq; on_goal 1 => (repeat' comp_step))
  all_goals try comp_side
  all_goals try simp only [mul_zero, zero_mul, add_zero, zero_add, sub_zero, zero_sub, mul_one, one_mul]
  all_goals try push_cast
  all_goals comp_eq

theorem d_fuselage_pitch__wing_incidence (vehicle_angle_of_attack wing_incidence : ℝ)  :
    HasDerivAt (fun t => out_fuselage_pitch vehicle_angle_of_attack t) (J_fuselage_pitch__wing_incidence) wing_incidence := by
  simp only [out_fuselage_pitch, J_fuselage_pitch__wing_incidence]
  (apply hasDerivAt_of_eq; on_goal 1 => (repeat' comp_step))
  all_goals try comp_side
  all_goals try simp only [mul_zero, zero_mul, add_zero, zero_add, sub_zero, zero_sub, mul_one, one_mul]
  all_goals try push_cast
  all_goals comp_eq

theorem d_load_factor__vehicle_propulsion_thrust_total (vehicle_propulsion_thrust_total mass
    vehicle_lift vehicle_angle_of_attack wing_incidence : ℝ) (h0 : 0 < mass) (h1 : cos 0 ≠ 0) :
    HasDerivAt (fun t => out_load_factor t mass vehicle_lift vehicle_angle_of_attack wing_incidence) (J_load_factor__vehicle_propulsion_thrust_total mass vehicle_angle_of_attack wing_incidence) vehicle_propulsion_thrust_total := by
  simp only [out_load_factor, J_load_factor__vehicle_propulsion_thrust_total, load_factor, cgam, weight, tsai, salpha_i, alpha_i]
  (apply hasDerivAt_of_eq; on_goal 1 => (repeat' comp_step))
  all_goals try comp_side
  all_goals try simp only [mul_zero, zero_mul, add_zero, zero_add, sub_zero, zero_sub, mul_one, one_mul]
  all_goals try push_cast
  all_goals comp_eq

theorem d_load_factor__mass (vehicle_propulsion_thrust_total mass vehicle_lift
    vehicle_angle_of_attack wing_incidence : ℝ) (h0 : 0 < mass) (h1 : cos 0 ≠ 0) :
    HasDerivAt (fun t => out_load_factor vehicle_propulsion_thrust_total t vehicle_lift vehicle_angle_of_attack wing_incidence) (J_load_factor__mass vehicle_propulsion_thrust_total mass vehicle_lift vehicle_angle_of_attack wing_incidence) mass := by
  simp only [out_load_factor, J_load_factor__mass, load_factor, cgam, weight, tsai, salpha_i, alpha_i]
  (apply hasDerivAt_of_eq; on_goal 1 => (repeat' comp_step))
  all_goals try comp_side
  all_goals try simp only [mul_zero, zero_mul, add_zero, zero_add, sub_zero, zero_sub, mul_one, one_mul]
  all_goals try push_cast
  all_goals comp_eq

theorem d_load_factor__vehicle_lift (vehicle_propulsion_thrust_total mass vehicle_lift
    vehicle_angle_of_attack wing_incidence : ℝ) (h0 : 0 < mass) (h1 : cos 0 ≠ 0) :
    HasDerivAt (fun t => out_load_factor vehicle_propulsion_thrust_total mass t vehicle_angle_of_attack wing_incidence) (J_load_factor__vehicle_lift mass) vehicle_lift := by
  simp only [out_load_factor, J_load_factor__vehicle_lift, load_factor, cgam, weight, tsai, salpha_i, alpha_i]
  (apply hasDerivAt_of_eq; on_goal 1 => (repeat' comp_step))
  all_goals try comp_side
  all_goals try simp only [mul_zero, zero_mul, add_zero, zero_add, sub_zero, zero_sub, mul_one, one_mul]
  all_goals try push_cast
  all_goals comp_eq

theorem d_load_factor__vehicle_angle_of_attack (vehicle_propulsion_thrust_total mass vehicle_lift
    vehicle_angle_of_attack wing_incidence : ℝ) (h0 : 0 < mass) (h1 : cos 0 ≠ 0) :
    HasDerivAt (fun t => out_load_factor vehicle_propulsion_thrust_total mass vehicle_lift t wing_incidence) (J_load_factor__vehicle_angle_of_attack vehicle_propulsion_thrust_total mass vehicle_angle_of_attack wing_incidence) vehicle_angle_of_attack := by
  simp only [out_load_factor, J_load_factor__vehicle_angle_of_attack, tcai, calpha_i, load_factor, cgam, weight, tsai, salpha_i, alpha_i]
  (apply hasDerivAt_of_eq; on_goal 1 => (repeat' comp_step))
  all_goals try comp_side
  all_goals try simp only [mul_zero, zero_mul, add_zero, zero_add, sub_zero, zero_sub, mul_one, one_mul]
  all_goals try push_cast
  all_goals comp_eq

theorem d_load_factor__wing_incidence (vehicle_propulsion_thrust_total mass vehicle_lift
    vehicle_angle_of_attack wing_incidence : ℝ) (h0 : 0 < mass) (h1 : cos 0 ≠ 0) :
    HasDerivAt (fun t => out_load_factor vehicle_propulsion_thrust_total mass vehicle_lift vehicle_angle_of_attack t) (J_load_factor__wing_incidence vehicle_propulsion_thrust_total mass vehicle_angle_of_attack wing_incidence) wing_incidence := by
  simp only [out_load_factor, J_load_factor__wing_incidence, tcai, calpha_i, load_factor, cgam, weight, tsai, salpha_i, alpha_i]
  (apply hasDerivAt_of_eq; on_goal 1 => (repeat' comp_step))
  all_goals try comp_side
  all_goals try simp only [mul_zero, zero_mul, add_zero, zero_add, sub_zero, zero_sub, mul_one, one_mul]
  all_goals try push_cast
  all_goals comp_eq

/-- Every partial derivative set by `UnsteadySolvedEOM` is the derivative of its output. -/
theorem partials (gravity mission_velocity vehicle_propulsion_thrust_total mass vehicle_drag
    vehicle_lift vehicle_angle_of_attack wing_incidence takeoff_rolling_friction_coefficient : ℝ)
    (h0 : 0 < mission_velocity) (h1 : cos 0 ≠ 0) (h2 : 0 < gravity) (h3 : 0 < mass) :
    HasDerivAt (fun t => out_dt_dr t) (J_dt_dr__mission_velocity mission_velocity) mission_velocity ∧
    HasDerivAt (fun t => out_normal_force t mass vehicle_lift vehicle_angle_of_attack wing_incidence)
      (J_normal_force__vehicle_propulsion_thrust_total vehicle_angle_of_attack wing_incidence)
      vehicle_propulsion_thrust_total ∧
    HasDerivAt (fun t => out_normal_force vehicle_propulsion_thrust_total t vehicle_lift
      vehicle_angle_of_attack wing_incidence) (J_normal_force__mass) mass ∧
    HasDerivAt (fun t => out_normal_force vehicle_propulsion_thrust_total mass t
      vehicle_angle_of_attack wing_incidence) (J_normal_force__vehicle_lift) vehicle_lift ∧
    HasDerivAt (fun t => out_normal_force vehicle_propulsion_thrust_total mass vehicle_lift t
      wing_incidence) (J_normal_force__vehicle_angle_of_attack vehicle_propulsion_thrust_total
      vehicle_angle_of_attack wing_incidence) vehicle_angle_of_attack ∧
    HasDerivAt (fun t => out_normal_force vehicle_propulsion_thrust_total mass vehicle_lift
      vehicle_angle_of_attack t) (J_normal_force__wing_incidence vehicle_propulsion_thrust_total
      vehicle_angle_of_attack wing_incidence) wing_incidence ∧
    HasDerivAt (fun t => out_dtas_dt gravity t mass vehicle_drag vehicle_lift vehicle_angle_of_attack
      wing_incidence takeoff_rolling_friction_coefficient)
      (J_dtas_dt__vehicle_propulsion_thrust_total gravity mass vehicle_angle_of_attack
      wing_incidence takeoff_rolling_friction_coefficient) vehicle_propulsion_thrust_total ∧
    HasDerivAt (fun t => out_dtas_dt gravity vehicle_propulsion_thrust_total t vehicle_drag
      vehicle_lift vehicle_angle_of_attack wing_incidence takeoff_rolling_friction_coefficient)
      (J_dtas_dt__mass gravity vehicle_propulsion_thrust_total mass vehicle_drag vehicle_lift
      vehicle_angle_of_attack wing_incidence takeoff_rolling_friction_coefficient) mass ∧
    HasDerivAt (fun t => out_dtas_dt gravity vehicle_propulsion_thrust_total mass t vehicle_lift
      vehicle_angle_of_attack wing_incidence takeoff_rolling_friction_coefficient)
      (J_dtas_dt__vehicle_drag gravity mass) vehicle_drag ∧
    HasDerivAt (fun t => out_dtas_dt gravity vehicle_propulsion_thrust_total mass vehicle_drag t
      vehicle_angle_of_attack wing_incidence takeoff_rolling_friction_coefficient)
      (J_dtas_dt__vehicle_lift gravity mass takeoff_rolling_friction_coefficient) vehicle_lift ∧
    HasDerivAt (fun t => out_dtas_dt gravity vehicle_propulsion_thrust_total mass vehicle_drag
      vehicle_lift t wing_incidence takeoff_rolling_friction_coefficient)
      (J_dtas_dt__vehicle_angle_of_attack gravity vehicle_propulsion_thrust_total mass
      vehicle_angle_of_attack wing_incidence takeoff_rolling_friction_coefficient)
      vehicle_angle_of_attack ∧
    HasDerivAt (fun t => out_dtas_dt gravity vehicle_propulsion_thrust_total mass vehicle_drag
      vehicle_lift vehicle_angle_of_attack t takeoff_rolling_friction_coefficient)
      (J_dtas_dt__wing_incidence gravity vehicle_propulsion_thrust_total mass
      vehicle_angle_of_attack wing_incidence takeoff_rolling_friction_coefficient) wing_incidence ∧
    HasDerivAt (fun t => out_dtas_dt gravity vehicle_propulsion_thrust_total mass vehicle_drag
      vehicle_lift vehicle_angle_of_attack wing_incidence t)
      (J_dtas_dt__takeoff_rolling_friction_coefficient gravity vehicle_propulsion_thrust_total
      mass vehicle_lift vehicle_angle_of_attack wing_incidence)
      takeoff_rolling_friction_coefficient ∧
    HasDerivAt (fun t => out_fuselage_pitch t wing_incidence)
      (J_fuselage_pitch__vehicle_angle_of_attack) vehicle_angle_of_attack ∧
    HasDerivAt (fun t => out_fuselage_pitch vehicle_angle_of_attack t)
      (J_fuselage_pitch__wing_incidence) wing_incidence ∧
    HasDerivAt (fun t => out_load_factor t mass vehicle_lift vehicle_angle_of_attack wing_incidence)
      (J_load_factor__vehicle_propulsion_thrust_total mass vehicle_angle_of_attack wing_incidence)
      vehicle_propulsion_thrust_total ∧
    HasDerivAt (fun t => out_load_factor vehicle_propulsion_thrust_total t vehicle_lift
      vehicle_angle_of_attack wing_incidence) (J_load_factor__mass vehicle_propulsion_thrust_total
      mass vehicle_lift vehicle_angle_of_attack wing_incidence) mass ∧
    HasDerivAt (fun t => out_load_factor vehicle_propulsion_thrust_total mass t
      vehicle_angle_of_attack wing_incidence) (J_load_factor__vehicle_lift mass) vehicle_lift ∧
    HasDerivAt (fun t => out_load_factor vehicle_propulsion_thrust_total mass vehicle_lift t
      wing_incidence) (J_load_factor__vehicle_angle_of_attack vehicle_propulsion_thrust_total mass
      vehicle_angle_of_attack wing_incidence) vehicle_angle_of_attack ∧
    HasDerivAt (fun t => out_load_factor vehicle_propulsion_thrust_total mass vehicle_lift
      vehicle_angle_of_attack t) (J_load_factor__wing_incidence vehicle_propulsion_thrust_total
      mass vehicle_angle_of_attack wing_incidence) wing_incidence :=
  ⟨d_dt_dr__mission_velocity _ h0 h1, d_normal_force__vehicle_propulsion_thrust_total _ _ _ _ _,
    d_normal_force__mass _ _ _ _ _, d_normal_force__vehicle_lift _ _ _ _ _,
    d_normal_force__vehicle_angle_of_attack _ _ _ _ _, d_normal_force__wing_incidence _ _ _ _ _,
    d_dtas_dt__vehicle_propulsion_thrust_total _ _ _ _ _ _ _ _ h2 h3, d_dtas_dt__mass _ _ _ _ _ _
    _ _ h2 h3, d_dtas_dt__vehicle_drag _ _ _ _ _ _ _ _ h2 h3, d_dtas_dt__vehicle_lift _ _ _ _ _ _
    _ _ h2 h3, d_dtas_dt__vehicle_angle_of_attack _ _ _ _ _ _ _ _ h2 h3, d_dtas_dt__wing_incidence
    _ _ _ _ _ _ _ _ h2 h3, d_dtas_dt__takeoff_rolling_friction_coefficient _ _ _ _ _ _ _ _ h2 h3,
    d_fuselage_pitch__vehicle_angle_of_attack _ _, d_fuselage_pitch__wing_incidence _ _,
    d_load_factor__vehicle_propulsion_thrust_total _ _ _ _ _ h3 h1, d_load_factor__mass _ _ _ _ _
    h3 h1, d_load_factor__vehicle_lift _ _ _ _ _ h3 h1, d_load_factor__vehicle_angle_of_attack _ _
    _ _ _ h3 h1, d_load_factor__wing_incidence _ _ _ _ _ h3 h1⟩

example : ∃ gravity mission_velocity vehicle_propulsion_thrust_total mass vehicle_drag
      vehicle_lift vehicle_angle_of_attack wing_incidence takeoff_rolling_friction_coefficient :
      ℝ,
      0 < mission_velocity ∧
      cos 0 ≠ 0 ∧
      0 < gravity ∧
      0 < mass :=
  ⟨1, 1, 0, 1, 0, 0, 0, 0, 0, by comp_example, by comp_example, by comp_example, by comp_example⟩

end Verif.Comp.MissionSolvedTwoDofOdeUnsteadySolvedEom.UnsteadySolvedEOM_groundroll

