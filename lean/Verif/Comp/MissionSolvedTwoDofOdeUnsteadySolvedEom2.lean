import Verif.Lemmas.CompDeriv

/-! # Partial derivatives of the components of `aviary/mission/solved_two_dof/ode/unsteady_solved_eom.py`

One node of a vector component is modelled over the real numbers.  Each option that selects a
branch is fixed, one namespace per choice.  `out_x` is the output `x`, `J_x__y` the entry that
`compute_partials` (or `declare_partials` with `val`) assigns, `d_x__y` the proof that the entry is
the derivative.  Inputs an output does not take as argument have no influence on it. -/

set_option linter.all false

namespace Verif.Comp.MissionSolvedTwoDofOdeUnsteadySolvedEom.UnsteadySolvedEOM_no_groundroll
open Real

/-- aviary/mission/solved_two_dof/ode/unsteady_solved_eom.py:224 -/
noncomputable def weight (mass : ℝ) : ℝ := mass * (8896443230521 / 2000000000000)

/-- aviary/mission/solved_two_dof/ode/unsteady_solved_eom.py:232 -/
noncomputable def m (gravity mass : ℝ) : ℝ := (weight mass) / gravity

/-- aviary/mission/solved_two_dof/ode/unsteady_solved_eom.py:243 -/
noncomputable def alpha_i (vehicle_angle_of_attack wing_incidence : ℝ) : ℝ :=
  vehicle_angle_of_attack - wing_incidence

/-- aviary/mission/solved_two_dof/ode/unsteady_solved_eom.py:245 -/
noncomputable def cgam (mission_flight_path_angle : ℝ) : ℝ := cos mission_flight_path_angle

/-- aviary/mission/solved_two_dof/ode/unsteady_solved_eom.py:246 -/
noncomputable def sgam (mission_flight_path_angle : ℝ) : ℝ := sin mission_flight_path_angle

/-- aviary/mission/solved_two_dof/ode/unsteady_solved_eom.py:248 -/
noncomputable def calpha_i (vehicle_angle_of_attack wing_incidence : ℝ) : ℝ :=
  cos (alpha_i vehicle_angle_of_attack wing_incidence)

/-- aviary/mission/solved_two_dof/ode/unsteady_solved_eom.py:249 -/
noncomputable def salpha_i (vehicle_angle_of_attack wing_incidence : ℝ) : ℝ :=
  sin (alpha_i vehicle_angle_of_attack wing_incidence)

/-- aviary/mission/solved_two_dof/ode/unsteady_solved_eom.py:251 -/
noncomputable def tcai (vehicle_propulsion_thrust_total vehicle_angle_of_attack wing_incidence : ℝ) : ℝ :=
  vehicle_propulsion_thrust_total * (calpha_i vehicle_angle_of_attack wing_incidence)

/-- aviary/mission/solved_two_dof/ode/unsteady_solved_eom.py:252 -/
noncomputable def tsai (vehicle_propulsion_thrust_total vehicle_angle_of_attack wing_incidence : ℝ) : ℝ :=
  vehicle_propulsion_thrust_total * (salpha_i vehicle_angle_of_attack wing_incidence)

/-- aviary/mission/solved_two_dof/ode/unsteady_solved_eom.py:254 -/
noncomputable def dr_dt (mission_velocity mission_flight_path_angle : ℝ) : ℝ :=
  mission_velocity * (cgam mission_flight_path_angle)

/-- aviary/mission/solved_two_dof/ode/unsteady_solved_eom.py:256 -/
noncomputable def normal_force (vehicle_propulsion_thrust_total mass vehicle_lift vehicle_angle_of_attack wing_incidence : ℝ) : ℝ :=
  ((weight mass) - vehicle_lift) - (tsai vehicle_propulsion_thrust_total vehicle_angle_of_attack
    wing_incidence)

/-- aviary/mission/solved_two_dof/ode/unsteady_solved_eom.py:258 -/
noncomputable def load_factor (vehicle_propulsion_thrust_total mass vehicle_lift vehicle_angle_of_attack wing_incidence mission_flight_path_angle : ℝ) : ℝ :=
  (vehicle_lift + (tsai vehicle_propulsion_thrust_total vehicle_angle_of_attack wing_incidence))
    / ((weight mass) * (cgam mission_flight_path_angle))

/-- aviary/mission/solved_two_dof/ode/unsteady_solved_eom.py:272 -/
noncomputable def dgam_dr (dh_dr d2h_dr2 : ℝ) : ℝ := d2h_dr2 / ((dh_dr ^ 2) + 1)

/-- aviary/mission/solved_two_dof/ode/unsteady_solved_eom.py:302 -/
noncomputable def mtas (gravity mission_velocity mass : ℝ) : ℝ :=
  (m gravity mass) * mission_velocity

/-- aviary/mission/solved_two_dof/ode/unsteady_solved_eom.py:303 -/
noncomputable def mtas2 (gravity mission_velocity mass : ℝ) : ℝ :=
  (mtas gravity mission_velocity mass) * (mtas gravity mission_velocity mass)

/-- aviary/mission/solved_two_dof/ode/unsteady_solved_eom.py:314 -/
noncomputable def drdot_dgam (mission_velocity mission_flight_path_angle : ℝ) : ℝ :=
  (-mission_velocity) * (sgam mission_flight_path_angle)

/-- aviary/mission/solved_two_dof/ode/unsteady_solved_eom.py:319 -/
noncomputable def _f (vehicle_propulsion_thrust_total mass vehicle_drag vehicle_lift vehicle_angle_of_attack wing_incidence mission_flight_path_angle : ℝ) : ℝ :=
  (((tcai vehicle_propulsion_thrust_total vehicle_angle_of_attack wing_incidence) -
    vehicle_drag) - ((weight mass) * (sgam mission_flight_path_angle))) - (0 * (((weight mass) -
    vehicle_lift) - (tsai vehicle_propulsion_thrust_total vehicle_angle_of_attack
    wing_incidence)))

/-- aviary/mission/solved_two_dof/ode/unsteady_solved_eom.py:371 -/
noncomputable def ddgam_dr_ddh_dr (dh_dr d2h_dr2 : ℝ) : ℝ :=
  (((-2) * dh_dr) * d2h_dr2) / (((dh_dr ^ 2) + 1) ^ 2)

/-- aviary/mission/solved_two_dof/ode/unsteady_solved_eom.py:372 -/
noncomputable def ddgam_dr_dd2h_dr2 (dh_dr : ℝ) : ℝ := 1 / ((dh_dr ^ 2) + 1)

/-- Output `dt_dr` of `UnsteadySolvedEOM.compute`, aviary/mission/solved_two_dof/ode/unsteady_solved_eom.py:260 -/
noncomputable def out_dt_dr (mission_velocity mission_flight_path_angle : ℝ) : ℝ :=
  1 / (dr_dt mission_velocity mission_flight_path_angle)

/-- Output `normal_force` of `UnsteadySolvedEOM.compute`, aviary/mission/solved_two_dof/ode/unsteady_solved_eom.py:262 -/
noncomputable def out_normal_force (vehicle_propulsion_thrust_total mass vehicle_lift vehicle_angle_of_attack wing_incidence : ℝ) : ℝ :=
  normal_force vehicle_propulsion_thrust_total mass vehicle_lift vehicle_angle_of_attack
    wing_incidence

/-- Output `dtas_dt` of `UnsteadySolvedEOM.compute`, aviary/mission/solved_two_dof/ode/unsteady_solved_eom.py:264 -/
noncomputable def out_dtas_dt (gravity vehicle_propulsion_thrust_total mass vehicle_drag vehicle_lift vehicle_angle_of_attack wing_incidence mission_flight_path_angle : ℝ) : ℝ :=
  ((((tcai vehicle_propulsion_thrust_total vehicle_angle_of_attack wing_incidence) -
    vehicle_drag) - ((weight mass) * (sgam mission_flight_path_angle))) - (0 * (normal_force
    vehicle_propulsion_thrust_total mass vehicle_lift vehicle_angle_of_attack wing_incidence)))
    / (m gravity mass)

/-- Output `fuselage_pitch` of `UnsteadySolvedEOM.compute`, aviary/mission/solved_two_dof/ode/unsteady_solved_eom.py:266 -/
noncomputable def out_fuselage_pitch (vehicle_angle_of_attack wing_incidence mission_flight_path_angle : ℝ) : ℝ :=
  (mission_flight_path_angle - wing_incidence) + vehicle_angle_of_attack

/-- Output `load_factor` of `UnsteadySolvedEOM.compute`, aviary/mission/solved_two_dof/ode/unsteady_solved_eom.py:268 -/
noncomputable def out_load_factor (vehicle_propulsion_thrust_total mass vehicle_lift vehicle_angle_of_attack wing_incidence mission_flight_path_angle : ℝ) : ℝ :=
  load_factor vehicle_propulsion_thrust_total mass vehicle_lift vehicle_angle_of_attack
    wing_incidence mission_flight_path_angle

/-- Output `dgam_dt` of `UnsteadySolvedEOM.compute`, aviary/mission/solved_two_dof/ode/unsteady_solved_eom.py:271 -/
noncomputable def out_dgam_dt (gravity mission_velocity vehicle_propulsion_thrust_total mass vehicle_lift vehicle_angle_of_attack wing_incidence mission_flight_path_angle : ℝ) : ℝ :=
  (((tsai vehicle_propulsion_thrust_total vehicle_angle_of_attack wing_incidence) +
    vehicle_lift) - ((weight mass) * (cgam mission_flight_path_angle))) / ((m gravity mass) *
    mission_velocity)

/-- Output `dgam_dt_approx` of `UnsteadySolvedEOM.compute`, aviary/mission/solved_two_dof/ode/unsteady_solved_eom.py:273 -/
noncomputable def out_dgam_dt_approx (mission_velocity mission_flight_path_angle dh_dr d2h_dr2 : ℝ) : ℝ :=
  (dgam_dr dh_dr d2h_dr2) * (dr_dt mission_velocity mission_flight_path_angle)

/-- Partial of `normal_force` with respect to `mass` as set by `UnsteadySolvedEOM`, aviary/mission/solved_two_dof/ode/unsteady_solved_eom.py:111 -/
noncomputable def J_normal_force__mass : ℝ := 8896443230521 / 2000000000000

/-- Partial of `normal_force` with respect to `vehicle_lift` as set by `UnsteadySolvedEOM`, aviary/mission/solved_two_dof/ode/unsteady_solved_eom.py:115 -/
noncomputable def J_normal_force__vehicle_lift : ℝ := -1

/-- Partial of `fuselage_pitch` with respect to `vehicle_angle_of_attack` as set by `UnsteadySolvedEOM`, aviary/mission/solved_two_dof/ode/unsteady_solved_eom.py:139 -/
noncomputable def J_fuselage_pitch__vehicle_angle_of_attack : ℝ := 1

/-- Partial of `fuselage_pitch` with respect to `wing_incidence` as set by `UnsteadySolvedEOM`, aviary/mission/solved_two_dof/ode/unsteady_solved_eom.py:147 -/
noncomputable def J_fuselage_pitch__wing_incidence : ℝ := -1

/-- Partial of `fuselage_pitch` with respect to `mission_flight_path_angle` as set by `UnsteadySolvedEOM`, aviary/mission/solved_two_dof/ode/unsteady_solved_eom.py:201 -/
noncomputable def J_fuselage_pitch__mission_flight_path_angle : ℝ := 1

/-- Partial of `dt_dr` with respect to `mission_velocity` as set by `UnsteadySolvedEOM`, aviary/mission/solved_two_dof/ode/unsteady_solved_eom.py:321 -/
noncomputable def J_dt_dr__mission_velocity (mission_velocity mission_flight_path_angle : ℝ) : ℝ :=
  (-(cgam mission_flight_path_angle)) / ((dr_dt mission_velocity mission_flight_path_angle) ^ 2)

/-- Partial of `dtas_dt` with respect to `vehicle_propulsion_thrust_total` as set by `UnsteadySolvedEOM`, aviary/mission/solved_two_dof/ode/unsteady_solved_eom.py:323 -/
noncomputable def J_dtas_dt__vehicle_propulsion_thrust_total (gravity mass vehicle_angle_of_attack wing_incidence : ℝ) : ℝ :=
  ((calpha_i vehicle_angle_of_attack wing_incidence) / (m gravity mass)) + (((salpha_i
    vehicle_angle_of_attack wing_incidence) / (m gravity mass)) * 0)

/-- Partial of `dtas_dt` with respect to `vehicle_drag` as set by `UnsteadySolvedEOM`, aviary/mission/solved_two_dof/ode/unsteady_solved_eom.py:326 -/
noncomputable def J_dtas_dt__vehicle_drag (gravity mass : ℝ) : ℝ := (-1) / (m gravity mass)

/-- Partial of `dtas_dt` with respect to `mass` as set by `UnsteadySolvedEOM`, aviary/mission/solved_two_dof/ode/unsteady_solved_eom.py:328 -/
noncomputable def J_dtas_dt__mass (gravity vehicle_propulsion_thrust_total mass vehicle_drag vehicle_lift vehicle_angle_of_attack wing_incidence mission_flight_path_angle : ℝ) : ℝ :=
  (((8896443230521 / 2000000000000) * ((-(sgam mission_flight_path_angle)) - 0)) / (m gravity
    mass)) - ((_f vehicle_propulsion_thrust_total mass vehicle_drag vehicle_lift
    vehicle_angle_of_attack wing_incidence mission_flight_path_angle) / (((weight mass) /
    (8896443230521 / 2000000000000)) * (m gravity mass)))

/-- Partial of `dtas_dt` with respect to `vehicle_lift` as set by `UnsteadySolvedEOM`, aviary/mission/solved_two_dof/ode/unsteady_solved_eom.py:332 -/
noncomputable def J_dtas_dt__vehicle_lift (gravity mass : ℝ) : ℝ := 0 / (m gravity mass)

/-- Partial of `dtas_dt` with respect to `vehicle_angle_of_attack` as set by `UnsteadySolvedEOM`, aviary/mission/solved_two_dof/ode/unsteady_solved_eom.py:333 -/
noncomputable def J_dtas_dt__vehicle_angle_of_attack (gravity vehicle_propulsion_thrust_total mass vehicle_angle_of_attack wing_incidence : ℝ) : ℝ :=
  ((-(tsai vehicle_propulsion_thrust_total vehicle_angle_of_attack wing_incidence)) / (m gravity
    mass)) + ((0 * (tcai vehicle_propulsion_thrust_total vehicle_angle_of_attack
    wing_incidence)) / (m gravity mass))

/-- Partial of `dtas_dt` with respect to `wing_incidence` as set by `UnsteadySolvedEOM`, aviary/mission/solved_two_dof/ode/unsteady_solved_eom.py:334 -/
noncomputable def J_dtas_dt__wing_incidence (gravity vehicle_propulsion_thrust_total mass vehicle_angle_of_attack wing_incidence : ℝ) : ℝ :=
  ((tsai vehicle_propulsion_thrust_total vehicle_angle_of_attack wing_incidence) / (m gravity
    mass)) - ((0 * (tcai vehicle_propulsion_thrust_total vehicle_angle_of_attack
    wing_incidence)) / (m gravity mass))

/-- Partial of `normal_force` with respect to `vehicle_propulsion_thrust_total` as set by `UnsteadySolvedEOM`, aviary/mission/solved_two_dof/ode/unsteady_solved_eom.py:336 -/
noncomputable def J_normal_force__vehicle_propulsion_thrust_total (vehicle_angle_of_attack wing_incidence : ℝ) : ℝ :=
  -(salpha_i vehicle_angle_of_attack wing_incidence)

/-- Partial of `load_factor` with respect to `vehicle_lift` as set by `UnsteadySolvedEOM`, aviary/mission/solved_two_dof/ode/unsteady_solved_eom.py:338 -/
noncomputable def J_load_factor__vehicle_lift (mass mission_flight_path_angle : ℝ) : ℝ :=
  1 / ((weight mass) * (cgam mission_flight_path_angle))

/-- Partial of `load_factor` with respect to `vehicle_propulsion_thrust_total` as set by `UnsteadySolvedEOM`, aviary/mission/solved_two_dof/ode/unsteady_solved_eom.py:339 -/
noncomputable def J_load_factor__vehicle_propulsion_thrust_total (mass vehicle_angle_of_attack wing_incidence mission_flight_path_angle : ℝ) : ℝ :=
  (salpha_i vehicle_angle_of_attack wing_incidence) / ((weight mass) * (cgam
    mission_flight_path_angle))

/-- Partial of `load_factor` with respect to `mass` as set by `UnsteadySolvedEOM`, aviary/mission/solved_two_dof/ode/unsteady_solved_eom.py:342 -/
noncomputable def J_load_factor__mass (vehicle_propulsion_thrust_total mass vehicle_lift vehicle_angle_of_attack wing_incidence mission_flight_path_angle : ℝ) : ℝ :=
  (-(vehicle_lift + (tsai vehicle_propulsion_thrust_total vehicle_angle_of_attack
    wing_incidence))) / ((((weight mass) ^ 2) / (8896443230521 / 2000000000000)) * (cgam
    mission_flight_path_angle))

/-- Partial of `normal_force` with respect to `vehicle_angle_of_attack` as set by `UnsteadySolvedEOM`, aviary/mission/solved_two_dof/ode/unsteady_solved_eom.py:346 -/
noncomputable def J_normal_force__vehicle_angle_of_attack (vehicle_propulsion_thrust_total vehicle_angle_of_attack wing_incidence : ℝ) : ℝ :=
  -(tcai vehicle_propulsion_thrust_total vehicle_angle_of_attack wing_incidence)

/-- Partial of `normal_force` with respect to `wing_incidence` as set by `UnsteadySolvedEOM`, aviary/mission/solved_two_dof/ode/unsteady_solved_eom.py:347 -/
noncomputable def J_normal_force__wing_incidence (vehicle_propulsion_thrust_total vehicle_angle_of_attack wing_incidence : ℝ) : ℝ :=
  tcai vehicle_propulsion_thrust_total vehicle_angle_of_attack wing_incidence

/-- Partial of `load_factor` with respect to `wing_incidence` as set by `UnsteadySolvedEOM`, aviary/mission/solved_two_dof/ode/unsteady_solved_eom.py:348 -/
noncomputable def J_load_factor__wing_incidence (vehicle_propulsion_thrust_total mass vehicle_angle_of_attack wing_incidence mission_flight_path_angle : ℝ) : ℝ :=
  (-(tcai vehicle_propulsion_thrust_total vehicle_angle_of_attack wing_incidence)) / ((weight
    mass) * (cgam mission_flight_path_angle))

/-- Partial of `load_factor` with respect to `vehicle_angle_of_attack` as set by `UnsteadySolvedEOM`, aviary/mission/solved_two_dof/ode/unsteady_solved_eom.py:350 -/
noncomputable def J_load_factor__vehicle_angle_of_attack (vehicle_propulsion_thrust_total mass vehicle_angle_of_attack wing_incidence mission_flight_path_angle : ℝ) : ℝ :=
  (tcai vehicle_propulsion_thrust_total vehicle_angle_of_attack wing_incidence) / ((weight mass)
    * (cgam mission_flight_path_angle))

/-- Partial of `dt_dr` with respect to `mission_flight_path_angle` as set by `UnsteadySolvedEOM`, aviary/mission/solved_two_dof/ode/unsteady_solved_eom.py:353 -/
noncomputable def J_dt_dr__mission_flight_path_angle (mission_velocity mission_flight_path_angle : ℝ) : ℝ :=
  (-(drdot_dgam mission_velocity mission_flight_path_angle)) / ((dr_dt mission_velocity
    mission_flight_path_angle) ^ 2)

/-- Partial of `dtas_dt` with respect to `mission_flight_path_angle` as set by `UnsteadySolvedEOM`, aviary/mission/solved_two_dof/ode/unsteady_solved_eom.py:355 -/
noncomputable def J_dtas_dt__mission_flight_path_angle (gravity mass mission_flight_path_angle : ℝ) : ℝ :=
  ((-(weight mass)) * (cgam mission_flight_path_angle)) / (m gravity mass)

/-- Partial of `dgam_dt` with respect to `vehicle_propulsion_thrust_total` as set by `UnsteadySolvedEOM`, aviary/mission/solved_two_dof/ode/unsteady_solved_eom.py:357 -/
noncomputable def J_dgam_dt__vehicle_propulsion_thrust_total (gravity mission_velocity mass vehicle_angle_of_attack wing_incidence : ℝ) : ℝ :=
  (salpha_i vehicle_angle_of_attack wing_incidence) / (mtas gravity mission_velocity mass)

/-- Partial of `dgam_dt` with respect to `vehicle_lift` as set by `UnsteadySolvedEOM`, aviary/mission/solved_two_dof/ode/unsteady_solved_eom.py:358 -/
noncomputable def J_dgam_dt__vehicle_lift (gravity mission_velocity mass : ℝ) : ℝ :=
  1 / (mtas gravity mission_velocity mass)

/-- Partial of `dgam_dt` with respect to `mass` as set by `UnsteadySolvedEOM`, aviary/mission/solved_two_dof/ode/unsteady_solved_eom.py:359 -/
noncomputable def J_dgam_dt__mass (gravity mission_velocity vehicle_propulsion_thrust_total mass vehicle_lift vehicle_angle_of_attack wing_incidence mission_flight_path_angle : ℝ) : ℝ :=
  (((8896443230521 / 2000000000000) * (cgam mission_flight_path_angle)) / (mtas gravity
    mission_velocity mass)) - ((((tsai vehicle_propulsion_thrust_total vehicle_angle_of_attack
    wing_incidence) + vehicle_lift) + ((weight mass) * (cgam mission_flight_path_angle))) /
    (((((weight mass) ^ 2) / (8896443230521 / 2000000000000)) / gravity) * mission_velocity))

/-- Partial of `dgam_dt` with respect to `mission_flight_path_angle` as set by `UnsteadySolvedEOM`, aviary/mission/solved_two_dof/ode/unsteady_solved_eom.py:363 -/
noncomputable def J_dgam_dt__mission_flight_path_angle (gravity mission_velocity mass mission_flight_path_angle : ℝ) : ℝ :=
  ((((m gravity mass) * mission_velocity) * (weight mass)) * (sgam mission_flight_path_angle)) /
    (mtas2 gravity mission_velocity mass)

/-- Partial of `dgam_dt` with respect to `vehicle_angle_of_attack` as set by `UnsteadySolvedEOM`, aviary/mission/solved_two_dof/ode/unsteady_solved_eom.py:364 -/
noncomputable def J_dgam_dt__vehicle_angle_of_attack (gravity mission_velocity vehicle_propulsion_thrust_total mass vehicle_angle_of_attack wing_incidence : ℝ) : ℝ :=
  (((m gravity mass) * mission_velocity) * (tcai vehicle_propulsion_thrust_total
    vehicle_angle_of_attack wing_incidence)) / (mtas2 gravity mission_velocity mass)

/-- Partial of `dgam_dt` with respect to `mission_velocity` as set by `UnsteadySolvedEOM`, aviary/mission/solved_two_dof/ode/unsteady_solved_eom.py:365 -/
noncomputable def J_dgam_dt__mission_velocity (gravity mission_velocity vehicle_propulsion_thrust_total mass vehicle_lift vehicle_angle_of_attack wing_incidence mission_flight_path_angle : ℝ) : ℝ :=
  ((-(m gravity mass)) * (((tsai vehicle_propulsion_thrust_total vehicle_angle_of_attack
    wing_incidence) + vehicle_lift) - ((weight mass) * (cgam mission_flight_path_angle)))) /
    (mtas2 gravity mission_velocity mass)

/-- Partial of `dgam_dt` with respect to `wing_incidence` as set by `UnsteadySolvedEOM`, aviary/mission/solved_two_dof/ode/unsteady_solved_eom.py:368 -/
noncomputable def J_dgam_dt__wing_incidence (gravity mission_velocity vehicle_propulsion_thrust_total mass vehicle_angle_of_attack wing_incidence : ℝ) : ℝ :=
  (((-(m gravity mass)) * mission_velocity) * (tcai vehicle_propulsion_thrust_total
    vehicle_angle_of_attack wing_incidence)) / (mtas2 gravity mission_velocity mass)

/-- Partial of `dgam_dt_approx` with respect to `dh_dr` as set by `UnsteadySolvedEOM`, aviary/mission/solved_two_dof/ode/unsteady_solved_eom.py:374 -/
noncomputable def J_dgam_dt_approx__dh_dr (mission_velocity mission_flight_path_angle dh_dr d2h_dr2 : ℝ) : ℝ :=
  (dr_dt mission_velocity mission_flight_path_angle) * (ddgam_dr_ddh_dr dh_dr d2h_dr2)

/-- Partial of `dgam_dt_approx` with respect to `d2h_dr2` as set by `UnsteadySolvedEOM`, aviary/mission/solved_two_dof/ode/unsteady_solved_eom.py:375 -/
noncomputable def J_dgam_dt_approx__d2h_dr2 (mission_velocity mission_flight_path_angle dh_dr : ℝ) : ℝ :=
  (dr_dt mission_velocity mission_flight_path_angle) * (ddgam_dr_dd2h_dr2 dh_dr)

/-- Partial of `dgam_dt_approx` with respect to `mission_velocity` as set by `UnsteadySolvedEOM`, aviary/mission/solved_two_dof/ode/unsteady_solved_eom.py:376 -/
noncomputable def J_dgam_dt_approx__mission_velocity (mission_flight_path_angle dh_dr d2h_dr2 : ℝ) : ℝ :=
  (dgam_dr dh_dr d2h_dr2) * (cgam mission_flight_path_angle)

/-- Partial of `dgam_dt_approx` with respect to `mission_flight_path_angle` as set by `UnsteadySolvedEOM`, aviary/mission/solved_two_dof/ode/unsteady_solved_eom.py:377 -/
noncomputable def J_dgam_dt_approx__mission_flight_path_angle (mission_velocity mission_flight_path_angle dh_dr d2h_dr2 : ℝ) : ℝ :=
  (dgam_dr dh_dr d2h_dr2) * (drdot_dgam mission_velocity mission_flight_path_angle)

/-- Partial of `load_factor` with respect to `mission_flight_path_angle` as set by `UnsteadySolvedEOM`, aviary/mission/solved_two_dof/ode/unsteady_solved_eom.py:378 -/
noncomputable def J_load_factor__mission_flight_path_angle (vehicle_propulsion_thrust_total mass vehicle_lift vehicle_angle_of_attack wing_incidence mission_flight_path_angle : ℝ) : ℝ :=
  ((vehicle_lift + (tsai vehicle_propulsion_thrust_total vehicle_angle_of_attack
    wing_incidence)) / ((weight mass) * ((cgam mission_flight_path_angle) ^ 2))) * (sgam
    mission_flight_path_angle)

theorem d_dt_dr__mission_velocity (mission_velocity mission_flight_path_angle : ℝ) (h0 : 0 <
    mission_velocity) (h1 : cos mission_flight_path_angle ≠ 0) :
    HasDerivAt (fun t => out_dt_dr t mission_flight_path_angle) (J_dt_dr__mission_velocity mission_velocity mission_flight_path_angle) mission_velocity := by
  simp only [out_dt_dr, J_dt_dr__mission_velocity, dr_dt, cgam]
  (apply hasDerivAt_of_eq; on_goal 1 => (repeat' comp_step))
  all_goals try comp_side
  all_goals try simp only [mul_zero, zero_mul, add_zero, zero_add, sub_zero, zero_sub, mul_one, one_mul]
  all_goals try push_cast
  all_goals comp_eq

theorem d_dt_dr__mission_flight_path_angle (mission_velocity mission_flight_path_angle : ℝ) (h0 :
    0 < mission_velocity) (h1 : cos mission_flight_path_angle ≠ 0) :
    HasDerivAt (fun t => out_dt_dr mission_velocity t) (J_dt_dr__mission_flight_path_angle mission_velocity mission_flight_path_angle) mission_flight_path_angle := by
  simp only [out_dt_dr, J_dt_dr__mission_flight_path_angle, drdot_dgam, sgam, dr_dt, cgam]
  (apply hasDerivAt_of_eq; on_goal 1 => (repeat' comp_step))
  all_goals try comp_side
  all_goals try simp only [mul_zero, zero_mul, add_zero, zero_add, sub_zero, zero_sub, mul_one, one_mul]
  all_goals try push_cast
  all_goals comp_eq

theorem d_normal_force__vehicle_propulsion_thrust_total (vehicle_propulsion_thrust_total mass
    vehicle_lift vehicle_angle_of_attack wing_incidence : ℝ)  :
    HasDerivAt (fun t => out_normal_force t mass vehicle_lift vehicle_angle_of_attack wing_incidence) (J_normal_force__vehicle_propulsion_thrust_total vehicle_angle_of_attack wing_incidence) vehicle_propulsion_thrust_total := by
  simp only [out_normal_force, J_normal_force__vehicle_propulsion_thrust_total, normal_force, tsai, salpha_i, alpha_i, weight]
  (apply hasDerivAt_of_eq; on_goal 1 => (repeat' comp_step))
  all_goals try comp_side
  all_goals try simp only [mul_zero, zero_mul, add_zero, zero_add, sub_zero, zero_sub, mul_one, one_mul]
  all_goals try push_cast
  all_goals comp_eq

theorem d_normal_force__mass (vehicle_propulsion_thrust_total mass vehicle_lift
    vehicle_angle_of_attack wing_incidence : ℝ)  :
    HasDerivAt (fun t => out_normal_force vehicle_propulsion_thrust_total t vehicle_lift vehicle_angle_of_attack wing_incidence) (J_normal_force__mass) mass := by
  simp only [out_normal_force, J_normal_force__mass, normal_force, tsai, salpha_i, alpha_i, weight]
  (apply hasDerivAt_of_eq; on_goal 1 => (repeat' comp_step))
  all_goals try comp_side
  all_goals try simp only [mul_zero, zero_mul, add_zero, zero_add, sub_zero, zero_sub, mul_one, one_mul]
  all_goals try push_cast
  all_goals comp_eq

theorem d_normal_force__vehicle_lift (vehicle_propulsion_thrust_total mass vehicle_lift
    vehicle_angle_of_attack wing_incidence : ℝ)  :
    HasDerivAt (fun t => out_normal_force vehicle_propulsion_thrust_total mass t vehicle_angle_of_attack wing_incidence) (J_normal_force__vehicle_lift) vehicle_lift := by
  simp only [out_normal_force, J_normal_force__vehicle_lift, normal_force, tsai, salpha_i, alpha_i, weight]
  (apply hasDerivAt_of_eq; on_goal 1 => (repeat' comp_step))
  all_goals try comp_side
  all_goals try simp only [mul_zero, zero_mul, add_zero, zero_add, sub_zero, zero_sub, mul_one, one_mul]
  all_goals try push_cast
  all_goals comp_eq

theorem d_normal_force__vehicle_angle_of_attack (vehicle_propulsion_thrust_total mass vehicle_lift
    vehicle_angle_of_attack wing_incidence : ℝ)  :
    HasDerivAt (fun t => out_normal_force vehicle_propulsion_thrust_total mass vehicle_lift t wing_incidence) (J_normal_force__vehicle_angle_of_attack vehicle_propulsion_thrust_total vehicle_angle_of_attack wing_incidence) vehicle_angle_of_attack := by
  simp only [out_normal_force, J_normal_force__vehicle_angle_of_attack, tcai, calpha_i, normal_force, tsai, salpha_i, alpha_i, weight]
  (apply hasDerivAt_of_eq; on_goal 1 => (repeat' comp_step))
  all_goals try comp_side
  all_goals try simp only [mul_zero, zero_mul, add_zero, zero_add, sub_zero, zero_sub, mul_one, one_mul]
  all_goals try push_cast
  all_goals comp_eq

theorem d_normal_force__wing_incidence (vehicle_propulsion_thrust_total mass vehicle_lift
    vehicle_angle_of_attack wing_incidence : ℝ)  :
    HasDerivAt (fun t => out_normal_force vehicle_propulsion_thrust_total mass vehicle_lift vehicle_angle_of_attack t) (J_normal_force__wing_incidence vehicle_propulsion_thrust_total vehicle_angle_of_attack wing_incidence) wing_incidence := by
  simp only [out_normal_force, J_normal_force__wing_incidence, tcai, calpha_i, normal_force, tsai, salpha_i, alpha_i, weight]
  (apply hasDerivAt_of_eq; on_goal 1 => (repeat' comp_step))
  all_goals try comp_side
  all_goals try simp only [mul_zero, zero_mul, add_zero, zero_add, sub_zero, zero_sub, mul_one, one_mul]
  all_goals try push_cast
  all_goals comp_eq

theorem d_dtas_dt__vehicle_propulsion_thrust_total (gravity vehicle_propulsion_thrust_total mass
    vehicle_drag vehicle_lift vehicle_angle_of_attack wing_incidence mission_flight_path_angle :
    ℝ) (h0 : 0 < gravity) (h1 : 0 < mass) :
    HasDerivAt (fun t => out_dtas_dt gravity t mass vehicle_drag vehicle_lift vehicle_angle_of_attack wing_incidence mission_flight_path_angle) (J_dtas_dt__vehicle_propulsion_thrust_total gravity mass vehicle_angle_of_attack wing_incidence) vehicle_propulsion_thrust_total := by
  simp only [out_dtas_dt, J_dtas_dt__vehicle_propulsion_thrust_total, m, normal_force, tsai, salpha_i, sgam, weight, tcai, calpha_i, alpha_i]
  (apply hasDerivAt_of_eq; on_goal 1 => (repeat' comp_step))
  all_goals try comp_side
  all_goals try simp only [mul_zero, zero_mul, add_zero, zero_add, sub_zero, zero_sub, mul_one, one_mul]
  all_goals try push_cast
  all_goals comp_eq

theorem d_dtas_dt__mass (gravity vehicle_propulsion_thrust_total mass vehicle_drag vehicle_lift
    vehicle_angle_of_attack wing_incidence mission_flight_path_angle : ℝ) (h0 : 0 < gravity) (h1 :
    0 < mass) :
    HasDerivAt (fun t => out_dtas_dt gravity vehicle_propulsion_thrust_total t vehicle_drag vehicle_lift vehicle_angle_of_attack wing_incidence mission_flight_path_angle) (J_dtas_dt__mass gravity vehicle_propulsion_thrust_total mass vehicle_drag vehicle_lift vehicle_angle_of_attack wing_incidence mission_flight_path_angle) mass := by
  simp only [out_dtas_dt, J_dtas_dt__mass, _f, m, normal_force, tsai, salpha_i, sgam, weight, tcai, calpha_i, alpha_i]
  (apply hasDerivAt_of_eq; on_goal 1 => (repeat' comp_step))
  all_goals try comp_side
  all_goals try simp only [mul_zero, zero_mul, add_zero, zero_add, sub_zero, zero_sub, mul_one, one_mul]
  all_goals try push_cast
  all_goals comp_eq

theorem d_dtas_dt__vehicle_drag (gravity vehicle_propulsion_thrust_total mass vehicle_drag
    vehicle_lift vehicle_angle_of_attack wing_incidence mission_flight_path_angle : ℝ) (h0 : 0 <
    gravity) (h1 : 0 < mass) :
    HasDerivAt (fun t => out_dtas_dt gravity vehicle_propulsion_thrust_total mass t vehicle_lift vehicle_angle_of_attack wing_incidence mission_flight_path_angle) (J_dtas_dt__vehicle_drag gravity mass) vehicle_drag := by
  simp only [out_dtas_dt, J_dtas_dt__vehicle_drag, m, normal_force, tsai, salpha_i, sgam, weight, tcai, calpha_i, alpha_i]
  (apply hasDerivAt_of_eq; on_goal 1 => (repeat' comp_step))
  all_goals try comp_side
  all_goals try simp only [mul_zero, zero_mul, add_zero, zero_add, sub_zero, zero_sub, mul_one, one_mul]
  all_goals try push_cast
  all_goals comp_eq

theorem d_dtas_dt__vehicle_lift (gravity vehicle_propulsion_thrust_total mass vehicle_drag
    vehicle_lift vehicle_angle_of_attack wing_incidence mission_flight_path_angle : ℝ) (h0 : 0 <
    gravity) (h1 : 0 < mass) :
    HasDerivAt (fun t => out_dtas_dt gravity vehicle_propulsion_thrust_total mass vehicle_drag t vehicle_angle_of_attack wing_incidence mission_flight_path_angle) (J_dtas_dt__vehicle_lift gravity mass) vehicle_lift := by
  simp only [out_dtas_dt, J_dtas_dt__vehicle_lift, m, normal_force, tsai, salpha_i, sgam, weight, tcai, calpha_i, alpha_i]
  (apply hasDerivAt_of_eq; on_goal 1 => (repeat' comp_step))
  all_goals try comp_side
  all_goals try simp only [mul_zero, zero_mul, add_zero, zero_add, sub_zero, zero_sub, mul_one, one_mul]
  all_goals try push_cast
  all_goals comp_eq

theorem d_dtas_dt__vehicle_angle_of_attack (gravity vehicle_propulsion_thrust_total mass
    vehicle_drag vehicle_lift vehicle_angle_of_attack wing_incidence mission_flight_path_angle :
    ℝ) (h0 : 0 < gravity) (h1 : 0 < mass) :
    HasDerivAt (fun t => out_dtas_dt gravity vehicle_propulsion_thrust_total mass vehicle_drag vehicle_lift t wing_incidence mission_flight_path_angle) (J_dtas_dt__vehicle_angle_of_attack gravity vehicle_propulsion_thrust_total mass vehicle_angle_of_attack wing_incidence) vehicle_angle_of_attack := by
  simp only [out_dtas_dt, J_dtas_dt__vehicle_angle_of_attack, m, normal_force, tsai, salpha_i, sgam, weight, tcai, calpha_i, alpha_i]
  (apply hasDerivAt_of_eq; on_goal 1 => (repeat' comp_step))
  all_goals try comp_side
  all_goals try simp only [mul_zero, zero_mul, add_zero, zero_add, sub_zero, zero_sub, mul_one, one_mul]
  all_goals try push_cast
  all_goals comp_eq

theorem d_dtas_dt__wing_incidence (gravity vehicle_propulsion_thrust_total mass vehicle_drag
    vehicle_lift vehicle_angle_of_attack wing_incidence mission_flight_path_angle : ℝ) (h0 : 0 <
    gravity) (h1 : 0 < mass) :
    HasDerivAt (fun t => out_dtas_dt gravity vehicle_propulsion_thrust_total mass vehicle_drag vehicle_lift vehicle_angle_of_attack t mission_flight_path_angle) (J_dtas_dt__wing_incidence gravity vehicle_propulsion_thrust_total mass vehicle_angle_of_attack wing_incidence) wing_incidence := by
  simp only [out_dtas_dt, J_dtas_dt__wing_incidence, m, normal_force, tsai, salpha_i, sgam, weight, tcai, calpha_i, alpha_i]
  (apply hasDerivAt_of_eq; on_goal 1 => (repeat' comp_step))
  all_goals try comp_side
  all_goals try simp only [mul_zero, zero_mul, add_zero, zero_add, sub_zero, zero_sub, mul_one, one_mul]
  all_goals try push_cast
  all_goals comp_eq

theorem d_dtas_dt__mission_flight_path_angle (gravity vehicle_propulsion_thrust_total mass
    vehicle_drag vehicle_lift vehicle_angle_of_attack wing_incidence mission_flight_path_angle :
    ℝ) (h0 : 0 < gravity) (h1 : 0 < mass) :
    HasDerivAt (fun t => out_dtas_dt gravity vehicle_propulsion_thrust_total mass vehicle_drag vehicle_lift vehicle_angle_of_attack wing_incidence t) (J_dtas_dt__mission_flight_path_angle gravity mass mission_flight_path_angle) mission_flight_path_angle := by
  simp only [out_dtas_dt, J_dtas_dt__mission_flight_path_angle, cgam, m, normal_force, tsai, salpha_i, sgam, weight, tcai, calpha_i, alpha_i]
  (apply hasDerivAt_of_eq; on_goal 1 => (repeat' comp_step))
  all_goals try comp_side
  all_goals try simp only [mul_zero, zero_mul, add_zero, zero_add, sub_zero, zero_sub, mul_one, one_mul]
  all_goals try push_cast
  all_goals comp_eq

theorem d_fuselage_pitch__vehicle_angle_of_attack (vehicle_angle_of_attack wing_incidence
    mission_flight_path_angle : ℝ)  :
    HasDerivAt (fun t => out_fuselage_pitch t wing_incidence mission_flight_path_angle) (J_fuselage_pitch__vehicle_angle_of_attack) vehicle_angle_of_attack := by
  simp only [out_fuselage_pitch, J_fuselage_pitch__vehicle_angle_of_attack]
  (apply hasDerivAt_of_eq; on_goal 1 => (repeat' comp_step))
  all_goals try comp_side
  all_goals try simp only [mul_zero, zero_mul, add_zero, zero_add, sub_zero, zero_sub, mul_one, one_mul]
  all_goals try push_cast
  all_goals comp_eq

theorem d_fuselage_pitch__wing_incidence (vehicle_angle_of_attack wing_incidence
    mission_flight_path_angle : ℝ)  :
    HasDerivAt (fun t => out_fuselage_pitch vehicle_angle_of_attack t mission_flight_path_angle) (J_fuselage_pitch__wing_incidence) wing_incidence := by
  simp only [out_fuselage_pitch, J_fuselage_pitch__wing_incidence]
  (apply hasDerivAt_of_eq; on_goal 1 => (repeat' comp_step))
  all_goals try comp_side
  all_goals try simp only [mul_zero, zero_mul, add_zero, zero_add, sub_zero, zero_sub, mul_one, one_mul]
  all_goals try push_cast
  all_goals comp_eq

theorem d_fuselage_pitch__mission_flight_path_angle (vehicle_angle_of_attack wing_incidence
    mission_flight_path_angle : ℝ)  :
    HasDerivAt (fun t => out_fuselage_pitch vehicle_angle_of_attack wing_incidence t) (J_fuselage_pitch__mission_flight_path_angle) mission_flight_path_angle := by
  simp only [out_fuselage_pitch, J_fuselage_pitch__mission_flight_path_angle]
  (apply hasDerivAt_of_eq; on_goal 1 => (repeat' comp_step))
  all_goals try comp_side
  all_goals try simp only [mul_zero, zero_mul, add_zero, zero_add, sub_zero, zero_sub, mul_one, one_mul]
  all_goals try push_cast
  all_goals comp_eq

theorem d_load_factor__vehicle_propulsion_thrust_total (vehicle_propulsion_thrust_total mass
    vehicle_lift vehicle_angle_of_attack wing_incidence mission_flight_path_angle : ℝ) (h0 : 0 <
    mass) (h1 : cos mission_flight_path_angle ≠ 0) :
    HasDerivAt (fun t => out_load_factor t mass vehicle_lift vehicle_angle_of_attack wing_incidence mission_flight_path_angle) (J_load_factor__vehicle_propulsion_thrust_total mass vehicle_angle_of_attack wing_incidence mission_flight_path_angle) vehicle_propulsion_thrust_total := by
  simp only [out_load_factor, J_load_factor__vehicle_propulsion_thrust_total, load_factor, cgam, weight, tsai, salpha_i, alpha_i]
  (apply hasDerivAt_of_eq; on_goal 1 => (repeat' comp_step))
  all_goals try comp_side
  all_goals try simp only [mul_zero, zero_mul, add_zero, zero_add, sub_zero, zero_sub, mul_one, one_mul]
  all_goals try push_cast
  all_goals comp_eq

theorem d_load_factor__mass (vehicle_propulsion_thrust_total mass vehicle_lift
    vehicle_angle_of_attack wing_incidence mission_flight_path_angle : ℝ) (h0 : 0 < mass) (h1 :
    cos mission_flight_path_angle ≠ 0) :
    HasDerivAt (fun t => out_load_factor vehicle_propulsion_thrust_total t vehicle_lift vehicle_angle_of_attack wing_incidence mission_flight_path_angle) (J_load_factor__mass vehicle_propulsion_thrust_total mass vehicle_lift vehicle_angle_of_attack wing_incidence mission_flight_path_angle) mass := by
  simp only [out_load_factor, J_load_factor__mass, load_factor, cgam, weight, tsai, salpha_i, alpha_i]
  (apply hasDerivAt_of_eq; on_goal 1 => (repeat' comp_step))
  all_goals try comp_side
  all_goals try simp only [mul_zero, zero_mul, add_zero, zero_add, sub_zero, zero_sub, mul_one, one_mul]
  all_goals try push_cast
  all_goals comp_eq

theorem d_load_factor__vehicle_lift (vehicle_propulsion_thrust_total mass vehicle_lift
    vehicle_angle_of_attack wing_incidence mission_flight_path_angle : ℝ) (h0 : 0 < mass) (h1 :
    cos mission_flight_path_angle ≠ 0) :
    HasDerivAt (fun t => out_load_factor vehicle_propulsion_thrust_total mass t vehicle_angle_of_attack wing_incidence mission_flight_path_angle) (J_load_factor__vehicle_lift mass mission_flight_path_angle) vehicle_lift := by
  simp only [out_load_factor, J_load_factor__vehicle_lift, load_factor, cgam, weight, tsai, salpha_i, alpha_i]
  (apply hasDerivAt_of_eq; on_goal 1 => (repeat' comp_step))
  all_goals try comp_side
  all_goals try simp only [mul_zero, zero_mul, add_zero, zero_add, sub_zero, zero_sub, mul_one, one_mul]
  all_goals try push_cast
  all_goals comp_eq

theorem d_load_factor__vehicle_angle_of_attack (vehicle_propulsion_thrust_total mass vehicle_lift
    vehicle_angle_of_attack wing_incidence mission_flight_path_angle : ℝ) (h0 : 0 < mass) (h1 :
    cos mission_flight_path_angle ≠ 0) :
    HasDerivAt (fun t => out_load_factor vehicle_propulsion_thrust_total mass vehicle_lift t wing_incidence mission_flight_path_angle) (J_load_factor__vehicle_angle_of_attack vehicle_propulsion_thrust_total mass vehicle_angle_of_attack wing_incidence mission_flight_path_angle) vehicle_angle_of_attack := by
  simp only [out_load_factor, J_load_factor__vehicle_angle_of_attack, tcai, calpha_i, load_factor, cgam, weight, tsai, salpha_i, alpha_i]
  (apply hasDerivAt_of_eq; on_goal 1 => (repeat' comp_step))
  all_goals try comp_side
  all_goals try simp only [mul_zero, zero_mul, add_zero, zero_add, sub_zero, zero_sub, mul_one, one_mul]
  all_goals try push_cast
  all_goals comp_eq

theorem d_load_factor__wing_incidence (vehicle_propulsion_thrust_total mass vehicle_lift
    vehicle_angle_of_attack wing_incidence mission_flight_path_angle : ℝ) (h0 : 0 < mass) (h1 :
    cos mission_flight_path_angle ≠ 0) :
    HasDerivAt (fun t => out_load_factor vehicle_propulsion_thrust_total mass vehicle_lift vehicle_angle_of_attack t mission_flight_path_angle) (J_load_factor__wing_incidence vehicle_propulsion_thrust_total mass vehicle_angle_of_attack wing_incidence mission_flight_path_angle) wing_incidence := by
  simp only [out_load_factor, J_load_factor__wing_incidence, tcai, calpha_i, load_factor, cgam, weight, tsai, salpha_i, alpha_i]
  (apply hasDerivAt_of_eq; on_goal 1 => (repeat' comp_step))
  all_goals try comp_side
  all_goals try simp only [mul_zero, zero_mul, add_zero, zero_add, sub_zero, zero_sub, mul_one, one_mul]
  all_goals try push_cast
  all_goals comp_eq

theorem d_load_factor__mission_flight_path_angle (vehicle_propulsion_thrust_total mass
    vehicle_lift vehicle_angle_of_attack wing_incidence mission_flight_path_angle : ℝ) (h0 : 0 <
    mass) (h1 : cos mission_flight_path_angle ≠ 0) :
    HasDerivAt (fun t => out_load_factor vehicle_propulsion_thrust_total mass vehicle_lift vehicle_angle_of_attack wing_incidence t) (J_load_factor__mission_flight_path_angle vehicle_propulsion_thrust_total mass vehicle_lift vehicle_angle_of_attack wing_incidence mission_flight_path_angle) mission_flight_path_angle := by
  simp only [out_load_factor, J_load_factor__mission_flight_path_angle, sgam, load_factor, cgam, weight, tsai, salpha_i, alpha_i]
  (apply hasDerivAt_of_eq; on_goal 1 => (repeat' comp_step))
  all_goals try comp_side
  all_goals try simp only [mul_zero, zero_mul, add_zero, zero_add, sub_zero, zero_sub, mul_one, one_mul]
  all_goals try push_cast
  all_goals comp_eq

theorem d_dgam_dt__mission_velocity (gravity mission_velocity vehicle_propulsion_thrust_total mass
    vehicle_lift vehicle_angle_of_attack wing_incidence mission_flight_path_angle : ℝ) (h0 : 0 <
    gravity) (h1 : 0 < mass) (h2 : 0 < mission_velocity) :
    HasDerivAt (fun t => out_dgam_dt gravity t vehicle_propulsion_thrust_total mass vehicle_lift vehicle_angle_of_attack wing_incidence mission_flight_path_angle) (J_dgam_dt__mission_velocity gravity mission_velocity vehicle_propulsion_thrust_total mass vehicle_lift vehicle_angle_of_attack wing_incidence mission_flight_path_angle) mission_velocity := by
  simp only [out_dgam_dt, J_dgam_dt__mission_velocity, mtas2, mtas, m, cgam, weight, tsai, salpha_i, alpha_i]
  (apply hasDerivAt_of_eq; on_goal 1 => (repeat' comp_step))
  all_goals try comp_side
  all_goals try simp only [mul_zero, zero_mul, add_zero, zero_add, sub_zero, zero_sub, mul_one, one_mul]
  all_goals try push_cast
  all_goals comp_eq

theorem d_dgam_dt__vehicle_propulsion_thrust_total (gravity mission_velocity
    vehicle_propulsion_thrust_total mass vehicle_lift vehicle_angle_of_attack wing_incidence
    mission_flight_path_angle : ℝ) (h0 : 0 < gravity) (h1 : 0 < mass) (h2 : 0 < mission_velocity)
    :
    HasDerivAt (fun t => out_dgam_dt gravity mission_velocity t mass vehicle_lift vehicle_angle_of_attack wing_incidence mission_flight_path_angle) (J_dgam_dt__vehicle_propulsion_thrust_total gravity mission_velocity mass vehicle_angle_of_attack wing_incidence) vehicle_propulsion_thrust_total := by
  simp only [out_dgam_dt, J_dgam_dt__vehicle_propulsion_thrust_total, mtas, m, cgam, weight, tsai, salpha_i, alpha_i]
  (apply hasDerivAt_of_eq; on_goal 1 => (repeat' comp_step))
  all_goals try comp_side
  all_goals try simp only [mul_zero, zero_mul, add_zero, zero_add, sub_zero, zero_sub, mul_one, one_mul]
  all_goals try push_cast
  all_goals comp_eq

theorem d_dgam_dt__mass (gravity mission_velocity vehicle_propulsion_thrust_total mass
    vehicle_lift vehicle_angle_of_attack wing_incidence mission_flight_path_angle : ℝ) (h0 : 0 <
    gravity) (h1 : 0 < mass) (h2 : 0 < mission_velocity) :
    HasDerivAt (fun t => out_dgam_dt gravity mission_velocity vehicle_propulsion_thrust_total t vehicle_lift vehicle_angle_of_attack wing_incidence mission_flight_path_angle) (J_dgam_dt__mass gravity mission_velocity vehicle_propulsion_thrust_total mass vehicle_lift vehicle_angle_of_attack wing_incidence mission_flight_path_angle) mass := by
  simp only [out_dgam_dt, J_dgam_dt__mass, mtas, m, cgam, weight, tsai, salpha_i, alpha_i]
  (apply hasDerivAt_of_eq; on_goal 1 => (repeat' comp_step))
  all_goals try comp_side
  all_goals try simp only [mul_zero, zero_mul, add_zero, zero_add, sub_zero, zero_sub, mul_one, one_mul]
  all_goals try push_cast
  all_goals comp_eq

theorem d_dgam_dt__vehicle_lift (gravity mission_velocity vehicle_propulsion_thrust_total mass
    vehicle_lift vehicle_angle_of_attack wing_incidence mission_flight_path_angle : ℝ) (h0 : 0 <
    gravity) (h1 : 0 < mass) (h2 : 0 < mission_velocity) :
    HasDerivAt (fun t => out_dgam_dt gravity mission_velocity vehicle_propulsion_thrust_total mass t vehicle_angle_of_attack wing_incidence mission_flight_path_angle) (J_dgam_dt__vehicle_lift gravity mission_velocity mass) vehicle_lift := by
  simp only [out_dgam_dt, J_dgam_dt__vehicle_lift, mtas, m, cgam, weight, tsai, salpha_i, alpha_i]
  (apply hasDerivAt_of_eq; on_goal 1 => (repeat' comp_step))
  all_goals try comp_side
  all_goals try simp only [mul_zero, zero_mul, add_zero, zero_add, sub_zero, zero_sub, mul_one, one_mul]
  all_goals try push_cast
  all_goals comp_eq

theorem d_dgam_dt__vehicle_angle_of_attack (gravity mission_velocity
    vehicle_propulsion_thrust_total mass vehicle_lift vehicle_angle_of_attack wing_incidence
    mission_flight_path_angle : ℝ) (h0 : 0 < gravity) (h1 : 0 < mass) (h2 : 0 < mission_velocity)
    :
    HasDerivAt (fun t => out_dgam_dt gravity mission_velocity vehicle_propulsion_thrust_total mass vehicle_lift t wing_incidence mission_flight_path_angle) (J_dgam_dt__vehicle_angle_of_attack gravity mission_velocity vehicle_propulsion_thrust_total mass vehicle_angle_of_attack wing_incidence) vehicle_angle_of_attack := by
  simp only [out_dgam_dt, J_dgam_dt__vehicle_angle_of_attack, mtas2, mtas, tcai, calpha_i, m, cgam, weight, tsai, salpha_i, alpha_i]
  (apply hasDerivAt_of_eq; on_goal 1 => (repeat' comp_step))
  all_goals try comp_side
  all_goals try simp only [mul_zero, zero_mul, add_zero, zero_add, sub_zero, zero_sub, mul_one, one_mul]
  all_goals try push_cast
  all_goals comp_eq

theorem d_dgam_dt__wing_incidence (gravity mission_velocity vehicle_propulsion_thrust_total mass
    vehicle_lift vehicle_angle_of_attack wing_incidence mission_flight_path_angle : ℝ) (h0 : 0 <
    gravity) (h1 : 0 < mass) (h2 : 0 < mission_velocity) :
    HasDerivAt (fun t => out_dgam_dt gravity mission_velocity vehicle_propulsion_thrust_total mass vehicle_lift vehicle_angle_of_attack t mission_flight_path_angle) (J_dgam_dt__wing_incidence gravity mission_velocity vehicle_propulsion_thrust_total mass vehicle_angle_of_attack wing_incidence) wing_incidence := by
  simp only [out_dgam_dt, J_dgam_dt__wing_incidence, mtas2, mtas, tcai, calpha_i, m, cgam, weight, tsai, salpha_i, alpha_i]
  (apply hasDerivAt_of_eq; on_goal 1 => (repeat' comp_step))
  all_goals try comp_side
  all_goals try simp only [mul_zero, zero_mul, add_zero, zero_add, sub_zero, zero_sub, mul_one, one_mul]
  all_goals try push_cast
  all_goals comp_eq

theorem d_dgam_dt__mission_flight_path_angle (gravity mission_velocity
    vehicle_propulsion_thrust_total mass vehicle_lift vehicle_angle_of_attack wing_incidence
    mission_flight_path_angle : ℝ) (h0 : 0 < gravity) (h1 : 0 < mass) (h2 : 0 < mission_velocity)
    :
    HasDerivAt (fun t => out_dgam_dt gravity mission_velocity vehicle_propulsion_thrust_total mass vehicle_lift vehicle_angle_of_attack wing_incidence t) (J_dgam_dt__mission_flight_path_angle gravity mission_velocity mass mission_flight_path_angle) mission_flight_path_angle := by
  simp only [out_dgam_dt, J_dgam_dt__mission_flight_path_angle, mtas2, mtas, sgam, m, cgam, weight, tsai, salpha_i, alpha_i]
  (apply hasDerivAt_of_eq; on_goal 1 => (repeat' comp_step))
  all_goals try comp_side
  all_goals try simp only [mul_zero, zero_mul, add_zero, zero_add, sub_zero, zero_sub, mul_one, one_mul]
  all_goals try push_cast
  all_goals comp_eq

theorem d_dgam_dt_approx__mission_velocity (mission_velocity mission_flight_path_angle dh_dr
    d2h_dr2 : ℝ)  :
    HasDerivAt (fun t => out_dgam_dt_approx t mission_flight_path_angle dh_dr d2h_dr2) (J_dgam_dt_approx__mission_velocity mission_flight_path_angle dh_dr d2h_dr2) mission_velocity := by
  simp only [out_dgam_dt_approx, J_dgam_dt_approx__mission_velocity, dr_dt, cgam, dgam_dr]
  (apply hasDerivAt_of_eq; on_goal 1 => (repeat' comp_step))
  all_goals try comp_side
  all_goals try simp only [mul_zero, zero_mul, add_zero, zero_add, sub_zero, zero_sub, mul_one, one_mul]
  all_goals try push_cast
  all_goals comp_eq

theorem d_dgam_dt_approx__mission_flight_path_angle (mission_velocity mission_flight_path_angle
    dh_dr d2h_dr2 : ℝ)  :
    HasDerivAt (fun t => out_dgam_dt_approx mission_velocity t dh_dr d2h_dr2) (J_dgam_dt_approx__mission_flight_path_angle mission_velocity mission_flight_path_angle dh_dr d2h_dr2) mission_flight_path_angle := by
  simp only [out_dgam_dt_approx, J_dgam_dt_approx__mission_flight_path_angle, drdot_dgam, sgam, dr_dt, cgam, dgam_dr]
  (apply hasDerivAt_of_eq; on_goal 1 => (repeat' comp_step))
  all_goals try comp_side
  all_goals try simp only [mul_zero, zero_mul, add_zero, zero_add, sub_zero, zero_sub, mul_one, one_mul]
  all_goals try push_cast
  all_goals comp_eq

theorem d_dgam_dt_approx__dh_dr (mission_velocity mission_flight_path_angle dh_dr d2h_dr2 : ℝ)  :
    HasDerivAt (fun t => out_dgam_dt_approx mission_velocity mission_flight_path_angle t d2h_dr2) (J_dgam_dt_approx__dh_dr mission_velocity mission_flight_path_angle dh_dr d2h_dr2) dh_dr := by
  simp only [out_dgam_dt_approx, J_dgam_dt_approx__dh_dr, ddgam_dr_ddh_dr, dr_dt, cgam, dgam_dr]
  (apply hasDerivAt_of_eq; on_goal 1 => (repeat' comp_step))
  all_goals try comp_side
  all_goals try simp only [mul_zero, zero_mul, add_zero, zero_add, sub_zero, zero_sub, mul_one, one_mul]
  all_goals try push_cast
  all_goals comp_eq

theorem d_dgam_dt_approx__d2h_dr2 (mission_velocity mission_flight_path_angle dh_dr d2h_dr2 : ℝ)
    :
    HasDerivAt (fun t => out_dgam_dt_approx mission_velocity mission_flight_path_angle dh_dr t) (J_dgam_dt_approx__d2h_dr2 mission_velocity mission_flight_path_angle dh_dr) d2h_dr2 := by
  simp only [out_dgam_dt_approx, J_dgam_dt_approx__d2h_dr2, ddgam_dr_dd2h_dr2, dr_dt, cgam, dgam_dr]
  (apply hasDerivAt_of_eq; on_goal 1 => (repeat' comp_step))
  all_goals try comp_side
  all_goals try simp only [mul_zero, zero_mul, add_zero, zero_add, sub_zero, zero_sub, mul_one, one_mul]
  all_goals try push_cast
  all_goals comp_eq

/-- Every partial derivative set by `UnsteadySolvedEOM` is the derivative of its output. -/
theorem partials (gravity mission_velocity vehicle_propulsion_thrust_total mass vehicle_drag
    vehicle_lift vehicle_angle_of_attack wing_incidence mission_flight_path_angle dh_dr d2h_dr2 :
    ℝ) (h0 : 0 < mission_velocity) (h1 : cos mission_flight_path_angle ≠ 0) (h2 : 0 < gravity) (h3
    : 0 < mass) :
    HasDerivAt (fun t => out_dt_dr t mission_flight_path_angle) (J_dt_dr__mission_velocity
      mission_velocity mission_flight_path_angle) mission_velocity ∧
    HasDerivAt (fun t => out_dt_dr mission_velocity t) (J_dt_dr__mission_flight_path_angle
      mission_velocity mission_flight_path_angle) mission_flight_path_angle ∧
    HasDerivAt (fun t => out_normal_force t mass vehicle_lift vehicle_angle_of_attack wing_incidence)
      (J_normal_force__vehicle_propulsion_thrust_total vehicle_angle_of_attack wing_incidence)
      vehicle_propulsion_thrust_total ∧
    HasDerivAt (fun t => out_normal_force vehicle_propulsion_thrust_total t vehicle_lift
      vehicle_angle_of_attack wing_incidence) (J_normal_force__mass) mass ∧
    HasDerivAt (fun t => out_normal_force vehicle_propulsion_thrust_total mass t
      vehicle_angle_of_attack wing_incidence) (J_normal_force__vehicle_lift) vehicle_lift ∧
    HasDerivAt (fun t => out_normal_force vehicle_propulsion_thrust_total mass vehicle_lift t
      wing_incidence) (J_normal_force__vehicle_angle_of_attack vehicle_propulsion_thrust_total
      vehicle_angle_of_attack wing_incidence) vehicle_angle_of_attack ∧
    HasDerivAt (fun t => out_normal_force vehicle_propulsion_thrust_total mass vehicle_lift
      vehicle_angle_of_attack t) (J_normal_force__wing_incidence vehicle_propulsion_thrust_total
      vehicle_angle_of_attack wing_incidence) wing_incidence ∧
    HasDerivAt (fun t => out_dtas_dt gravity t mass vehicle_drag vehicle_lift vehicle_angle_of_attack
      wing_incidence mission_flight_path_angle) (J_dtas_dt__vehicle_propulsion_thrust_total
      gravity mass vehicle_angle_of_attack wing_incidence) vehicle_propulsion_thrust_total ∧
    HasDerivAt (fun t => out_dtas_dt gravity vehicle_propulsion_thrust_total t vehicle_drag
      vehicle_lift vehicle_angle_of_attack wing_incidence mission_flight_path_angle)
      (J_dtas_dt__mass gravity vehicle_propulsion_thrust_total mass vehicle_drag vehicle_lift
      vehicle_angle_of_attack wing_incidence mission_flight_path_angle) mass ∧
    HasDerivAt (fun t => out_dtas_dt gravity vehicle_propulsion_thrust_total mass t vehicle_lift
      vehicle_angle_of_attack wing_incidence mission_flight_path_angle) (J_dtas_dt__vehicle_drag
      gravity mass) vehicle_drag ∧
    HasDerivAt (fun t => out_dtas_dt gravity vehicle_propulsion_thrust_total mass vehicle_drag t
      vehicle_angle_of_attack wing_incidence mission_flight_path_angle) (J_dtas_dt__vehicle_lift
      gravity mass) vehicle_lift ∧
    HasDerivAt (fun t => out_dtas_dt gravity vehicle_propulsion_thrust_total mass vehicle_drag
      vehicle_lift t wing_incidence mission_flight_path_angle) (J_dtas_dt__vehicle_angle_of_attack
      gravity vehicle_propulsion_thrust_total mass vehicle_angle_of_attack wing_incidence)
      vehicle_angle_of_attack ∧
    HasDerivAt (fun t => out_dtas_dt gravity vehicle_propulsion_thrust_total mass vehicle_drag
      vehicle_lift vehicle_angle_of_attack t mission_flight_path_angle) (J_dtas_dt__wing_incidence
      gravity vehicle_propulsion_thrust_total mass vehicle_angle_of_attack wing_incidence)
      wing_incidence ∧
    HasDerivAt (fun t => out_dtas_dt gravity vehicle_propulsion_thrust_total mass vehicle_drag
      vehicle_lift vehicle_angle_of_attack wing_incidence t) (J_dtas_dt__mission_flight_path_angle
      gravity mass mission_flight_path_angle) mission_flight_path_angle ∧
    HasDerivAt (fun t => out_fuselage_pitch t wing_incidence mission_flight_path_angle)
      (J_fuselage_pitch__vehicle_angle_of_attack) vehicle_angle_of_attack ∧
    HasDerivAt (fun t => out_fuselage_pitch vehicle_angle_of_attack t mission_flight_path_angle)
      (J_fuselage_pitch__wing_incidence) wing_incidence ∧
    HasDerivAt (fun t => out_fuselage_pitch vehicle_angle_of_attack wing_incidence t)
      (J_fuselage_pitch__mission_flight_path_angle) mission_flight_path_angle ∧
    HasDerivAt (fun t => out_load_factor t mass vehicle_lift vehicle_angle_of_attack wing_incidence
      mission_flight_path_angle) (J_load_factor__vehicle_propulsion_thrust_total mass
      vehicle_angle_of_attack wing_incidence mission_flight_path_angle)
      vehicle_propulsion_thrust_total ∧
    HasDerivAt (fun t => out_load_factor vehicle_propulsion_thrust_total t vehicle_lift
      vehicle_angle_of_attack wing_incidence mission_flight_path_angle) (J_load_factor__mass
      vehicle_propulsion_thrust_total mass vehicle_lift vehicle_angle_of_attack wing_incidence
      mission_flight_path_angle) mass ∧
    HasDerivAt (fun t => out_load_factor vehicle_propulsion_thrust_total mass t
      vehicle_angle_of_attack wing_incidence mission_flight_path_angle)
      (J_load_factor__vehicle_lift mass mission_flight_path_angle) vehicle_lift ∧
    HasDerivAt (fun t => out_load_factor vehicle_propulsion_thrust_total mass vehicle_lift t
      wing_incidence mission_flight_path_angle) (J_load_factor__vehicle_angle_of_attack
      vehicle_propulsion_thrust_total mass vehicle_angle_of_attack wing_incidence
      mission_flight_path_angle) vehicle_angle_of_attack ∧
    HasDerivAt (fun t => out_load_factor vehicle_propulsion_thrust_total mass vehicle_lift
      vehicle_angle_of_attack t mission_flight_path_angle) (J_load_factor__wing_incidence
      vehicle_propulsion_thrust_total mass vehicle_angle_of_attack wing_incidence
      mission_flight_path_angle) wing_incidence ∧
    HasDerivAt (fun t => out_load_factor vehicle_propulsion_thrust_total mass vehicle_lift
      vehicle_angle_of_attack wing_incidence t) (J_load_factor__mission_flight_path_angle
      vehicle_propulsion_thrust_total mass vehicle_lift vehicle_angle_of_attack wing_incidence
      mission_flight_path_angle) mission_flight_path_angle ∧
    HasDerivAt (fun t => out_dgam_dt gravity t vehicle_propulsion_thrust_total mass vehicle_lift
      vehicle_angle_of_attack wing_incidence mission_flight_path_angle)
      (J_dgam_dt__mission_velocity gravity mission_velocity vehicle_propulsion_thrust_total mass
      vehicle_lift vehicle_angle_of_attack wing_incidence mission_flight_path_angle)
      mission_velocity ∧
    HasDerivAt (fun t => out_dgam_dt gravity mission_velocity t mass vehicle_lift
      vehicle_angle_of_attack wing_incidence mission_flight_path_angle)
      (J_dgam_dt__vehicle_propulsion_thrust_total gravity mission_velocity mass
      vehicle_angle_of_attack wing_incidence) vehicle_propulsion_thrust_total ∧
    HasDerivAt (fun t => out_dgam_dt gravity mission_velocity vehicle_propulsion_thrust_total t
      vehicle_lift vehicle_angle_of_attack wing_incidence mission_flight_path_angle)
      (J_dgam_dt__mass gravity mission_velocity vehicle_propulsion_thrust_total mass vehicle_lift
      vehicle_angle_of_attack wing_incidence mission_flight_path_angle) mass ∧
    HasDerivAt (fun t => out_dgam_dt gravity mission_velocity vehicle_propulsion_thrust_total mass t
      vehicle_angle_of_attack wing_incidence mission_flight_path_angle) (J_dgam_dt__vehicle_lift
      gravity mission_velocity mass) vehicle_lift ∧
    HasDerivAt (fun t => out_dgam_dt gravity mission_velocity vehicle_propulsion_thrust_total mass
      vehicle_lift t wing_incidence mission_flight_path_angle) (J_dgam_dt__vehicle_angle_of_attack
      gravity mission_velocity vehicle_propulsion_thrust_total mass vehicle_angle_of_attack
      wing_incidence) vehicle_angle_of_attack ∧
    HasDerivAt (fun t => out_dgam_dt gravity mission_velocity vehicle_propulsion_thrust_total mass
      vehicle_lift vehicle_angle_of_attack t mission_flight_path_angle) (J_dgam_dt__wing_incidence
      gravity mission_velocity vehicle_propulsion_thrust_total mass vehicle_angle_of_attack
      wing_incidence) wing_incidence ∧
    HasDerivAt (fun t => out_dgam_dt gravity mission_velocity vehicle_propulsion_thrust_total mass
      vehicle_lift vehicle_angle_of_attack wing_incidence t) (J_dgam_dt__mission_flight_path_angle
      gravity mission_velocity mass mission_flight_path_angle) mission_flight_path_angle ∧
    HasDerivAt (fun t => out_dgam_dt_approx t mission_flight_path_angle dh_dr d2h_dr2)
      (J_dgam_dt_approx__mission_velocity mission_flight_path_angle dh_dr d2h_dr2)
      mission_velocity ∧
    HasDerivAt (fun t => out_dgam_dt_approx mission_velocity t dh_dr d2h_dr2)
      (J_dgam_dt_approx__mission_flight_path_angle mission_velocity mission_flight_path_angle
      dh_dr d2h_dr2) mission_flight_path_angle ∧
    HasDerivAt (fun t => out_dgam_dt_approx mission_velocity mission_flight_path_angle t d2h_dr2)
      (J_dgam_dt_approx__dh_dr mission_velocity mission_flight_path_angle dh_dr d2h_dr2) dh_dr ∧
    HasDerivAt (fun t => out_dgam_dt_approx mission_velocity mission_flight_path_angle dh_dr t)
      (J_dgam_dt_approx__d2h_dr2 mission_velocity mission_flight_path_angle dh_dr) d2h_dr2 :=
  ⟨d_dt_dr__mission_velocity _ _ h0 h1, d_dt_dr__mission_flight_path_angle _ _ h0 h1,
    d_normal_force__vehicle_propulsion_thrust_total _ _ _ _ _, d_normal_force__mass _ _ _ _ _,
    d_normal_force__vehicle_lift _ _ _ _ _, d_normal_force__vehicle_angle_of_attack _ _ _ _ _,
    d_normal_force__wing_incidence _ _ _ _ _, d_dtas_dt__vehicle_propulsion_thrust_total _ _ _ _ _
    _ _ _ h2 h3, d_dtas_dt__mass _ _ _ _ _ _ _ _ h2 h3, d_dtas_dt__vehicle_drag _ _ _ _ _ _ _ _ h2
    h3, d_dtas_dt__vehicle_lift _ _ _ _ _ _ _ _ h2 h3, d_dtas_dt__vehicle_angle_of_attack _ _ _ _
    _ _ _ _ h2 h3, d_dtas_dt__wing_incidence _ _ _ _ _ _ _ _ h2 h3,
    d_dtas_dt__mission_flight_path_angle _ _ _ _ _ _ _ _ h2 h3,
    d_fuselage_pitch__vehicle_angle_of_attack _ _ _, d_fuselage_pitch__wing_incidence _ _ _,
    d_fuselage_pitch__mission_flight_path_angle _ _ _,
    d_load_factor__vehicle_propulsion_thrust_total _ _ _ _ _ _ h3 h1, d_load_factor__mass _ _ _ _
    _ _ h3 h1, d_load_factor__vehicle_lift _ _ _ _ _ _ h3 h1,
    d_load_factor__vehicle_angle_of_attack _ _ _ _ _ _ h3 h1, d_load_factor__wing_incidence _ _ _
    _ _ _ h3 h1, d_load_factor__mission_flight_path_angle _ _ _ _ _ _ h3 h1,
    d_dgam_dt__mission_velocity _ _ _ _ _ _ _ _ h2 h3 h0,
    d_dgam_dt__vehicle_propulsion_thrust_total _ _ _ _ _ _ _ _ h2 h3 h0, d_dgam_dt__mass _ _ _ _ _
    _ _ _ h2 h3 h0, d_dgam_dt__vehicle_lift _ _ _ _ _ _ _ _ h2 h3 h0,
    d_dgam_dt__vehicle_angle_of_attack _ _ _ _ _ _ _ _ h2 h3 h0, d_dgam_dt__wing_incidence _ _ _ _
    _ _ _ _ h2 h3 h0, d_dgam_dt__mission_flight_path_angle _ _ _ _ _ _ _ _ h2 h3 h0,
    d_dgam_dt_approx__mission_velocity _ _ _ _, d_dgam_dt_approx__mission_flight_path_angle _ _ _
    _, d_dgam_dt_approx__dh_dr _ _ _ _, d_dgam_dt_approx__d2h_dr2 _ _ _ _⟩

example : ∃ gravity mission_velocity vehicle_propulsion_thrust_total mass vehicle_drag
      vehicle_lift vehicle_angle_of_attack wing_incidence mission_flight_path_angle dh_dr d2h_dr2
      : ℝ,
      0 < mission_velocity ∧
      cos mission_flight_path_angle ≠ 0 ∧
      0 < gravity ∧
      0 < mass :=
  ⟨1, 1, 0, 1, 0, 0, 0, 0, 0, 0, 0, by comp_example, by comp_example, by comp_example, by
    comp_example⟩

end Verif.Comp.MissionSolvedTwoDofOdeUnsteadySolvedEom.UnsteadySolvedEOM_no_groundroll

