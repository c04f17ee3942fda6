import Verif.Comp.MissionOdeSpecificEnergyRate
import Verif.Comp.MissionOdeAltitudeRate
import Verif.Comp.MissionEnergyStateOdeRequiredThrust
import Verif.Comp.MissionEnergyStateOdeRangeRate
import Verif.Comp.MissionEnergyStateOdeTakeoffEom
import Verif.Comp.MissionTwoDofOdeFlightEom
import Verif.Comp.MissionTwoDofOdeFlightPathEom1
import Verif.Comp.MissionTwoDofOdeFlightPathEom2
import Verif.Comp.MissionTwoDofOdeAccelEom
import Verif.Comp.MissionSolvedTwoDofOdeGroundrollEom
import Verif.Comp.MissionSolvedTwoDofOdeGammaComp
import Verif.Comp.MissionTwoDofOdeTaxiEom
import Mathlib.Tactic.LinearCombination

/-!
# The equations of motion of the mission analyses agree with each other and with kinematics

The components were written independently for the energy-state, the two-degree-of-freedom and the detailed
takeoff analyses. The theorems relate their outputs. `mass` of the two-degree-of-freedom components is in lbm
and serves as weight in lbf (`GRAV_ENGLISH_LBM = 1`).
-/

namespace Verif.Phys
open Real

/-- aviary/mission/ode/specific_energy_rate.py:67, arguments g V T D m -/
noncomputable abbrev ser := Comp.MissionOdeSpecificEnergyRate.SpecificEnergyRate.out_mission_specific_energy_rate
/-- aviary/mission/ode/altitude_rate.py:66, arguments g Edot Vdot V -/
noncomputable abbrev altRate := Comp.MissionOdeAltitudeRate.AltitudeRate.out_mission_altitude_rate
/-- aviary/mission/energy_state/ode/required_thrust.py:61, arguments g D hdot V Vdot m -/
noncomputable abbrev reqThrust := Comp.MissionEnergyStateOdeRequiredThrust.RequiredThrust.out_thrust_required
/-- aviary/mission/energy_state/ode/range_rate.py, arguments hdot V -/
noncomputable abbrev rangeRate := Comp.MissionEnergyStateOdeRangeRate.RangeRate.out_mission_distance_rate

/-- Energy-state analysis: the required thrust is the one thrust for which specific energy rate and altitude
rate reproduce the given climb and acceleration. -/
theorem requiredThrust_inverse (g V T D m hdot Vdot : ℝ) (hg : g ≠ 0) (hV : V ≠ 0) (hm : m ≠ 0) :
    altRate g (ser g V T D m) Vdot V = hdot ↔ T = reqThrust g D hdot V Vdot m := by
  simp only [altRate, ser, reqThrust, Comp.MissionOdeAltitudeRate.AltitudeRate.out_mission_altitude_rate,
    Comp.MissionOdeSpecificEnergyRate.SpecificEnergyRate.out_mission_specific_energy_rate,
    Comp.MissionOdeSpecificEnergyRate.SpecificEnergyRate.weight,
    Comp.MissionEnergyStateOdeRequiredThrust.RequiredThrust.out_thrust_required,
    Comp.MissionEnergyStateOdeRequiredThrust.RequiredThrust.thrust_required]
  constructor
  · intro h
    rw [← h]; field_simp; ring
  · intro h
    rw [h]; field_simp; ring

/-- `range_rate` completes the speed triangle. -/
theorem rangeRate_triangle (hdot V : ℝ) (h : |hdot| ≤ |V|) : rangeRate hdot V ^ 2 + hdot ^ 2 = V ^ 2 := by
  have h2 : 0 ≤ V ^ 2 - hdot ^ 2 := by nlinarith [sq_abs hdot, sq_abs V, abs_nonneg hdot, abs_nonneg V]
  simp only [rangeRate, Comp.MissionEnergyStateOdeRangeRate.RangeRate.out_mission_distance_rate,
    Comp.MissionEnergyStateOdeRangeRate.RangeRate.velocity_2,
    Comp.MissionEnergyStateOdeRangeRate.RangeRate.climb_rate_2]
  rw [← sqrt_eq_rpow, sq_sqrt h2]; ring

namespace Climb
open Comp.MissionTwoDofOdeFlightEom.EOMRates

/-- Steady climb (`EOMRates`): climb rate is the specific energy rate, as long as excess thrust does not exceed
the weight. -/
theorem altitude_energy (V T D W : ℝ) (h1 : -1 ≤ (T - D) / W) (h2 : (T - D) / W ≤ 1) :
    out_mission_altitude_rate V T D W = ser 1 V T D W := by
  simp only [out_mission_altitude_rate, gamma, sin_arcsin h1 h2, ser,
    Comp.MissionOdeSpecificEnergyRate.SpecificEnergyRate.out_mission_specific_energy_rate,
    Comp.MissionOdeSpecificEnergyRate.SpecificEnergyRate.weight]
  rw [mul_one, mul_div_assoc]

/-- Climb and ground speed complete the speed triangle. -/
theorem triangle (V T D W : ℝ) :
    out_mission_altitude_rate V T D W ^ 2 + out_mission_distance_rate V T D W ^ 2 = V ^ 2 := by
  simp only [out_mission_altitude_rate, out_mission_distance_rate]
  linear_combination V ^ 2 * sin_sq_add_cos_sq (gamma T D W)

/-- The ground speed equals the one of the energy-state analysis for the same climb rate. -/
theorem distance_rangeRate (V T D W : ℝ) (hV : 0 ≤ V) :
    rangeRate (out_mission_altitude_rate V T D W) V = out_mission_distance_rate V T D W := by
  have hc : 0 ≤ V * cos (gamma T D W) := mul_nonneg hV (cos_arcsin_nonneg _)
  have e : V ^ 2 - out_mission_altitude_rate V T D W ^ 2 = (V * cos (gamma T D W)) ^ 2 := by
    have := triangle V T D W
    simp only [out_mission_distance_rate] at this
    linarith
  simp only [rangeRate, Comp.MissionEnergyStateOdeRangeRate.RangeRate.out_mission_distance_rate,
    Comp.MissionEnergyStateOdeRangeRate.RangeRate.velocity_2,
    Comp.MissionEnergyStateOdeRangeRate.RangeRate.climb_rate_2]
  rw [e, ← sqrt_eq_rpow, sqrt_sq hc]
  rfl

example : (-1 : ℝ) ≤ (30000 - 20000) / 150000 ∧ ((30000 : ℝ) - 20000) / 150000 ≤ 1 := by norm_num

end Climb

namespace FlightPath
open Comp.MissionTwoDofOdeFlightPathEom.FlightPathEOM_no_groundroll

/-- Arguments of the thrust: angle between thrust and flight path in radians. -/
noncomputable def thrustAngle (a iw : ℝ) : ℝ := (a - iw) * π / 180

/-- Energy balance in free flight: climb plus acceleration power equals excess power. -/
theorem energy (g W T L D V γ iw a : ℝ) (hg : g ≠ 0) (hW : W ≠ 0) :
    out_mission_altitude_rate V γ + V * out_mission_velocity_rate g W T L D γ iw a / g =
      ser 1 V (T * cos (thrustAngle a iw)) D W := by
  simp only [out_mission_altitude_rate, out_mission_velocity_rate, thrust_along_flightpath, ser, thrustAngle,
    Comp.MissionOdeSpecificEnergyRate.SpecificEnergyRate.out_mission_specific_energy_rate,
    Comp.MissionOdeSpecificEnergyRate.SpecificEnergyRate.weight]
  field_simp
  ring

/-- So the altitude rate of the energy-state analysis gives the same climb rate. -/
theorem altitude_rate_agrees (g W T L D V γ iw a : ℝ) (hg : g ≠ 0) (hW : W ≠ 0) :
    altRate g (ser 1 V (T * cos (thrustAngle a iw)) D W) (out_mission_velocity_rate g W T L D γ iw a) V =
      out_mission_altitude_rate V γ := by
  rw [← energy g W T L D V γ iw a hg hW]
  simp only [altRate, Comp.MissionOdeAltitudeRate.AltitudeRate.out_mission_altitude_rate]
  ring

/-- Climb and ground speed complete the speed triangle. -/
theorem triangle (V γ : ℝ) : out_mission_altitude_rate V γ ^ 2 + out_mission_distance_rate V γ ^ 2 = V ^ 2 := by
  simp only [out_mission_altitude_rate, out_mission_distance_rate]
  linear_combination V ^ 2 * sin_sq_add_cos_sq γ

/-- The flight path is straight exactly if the load factor is one. -/
theorem straight_iff_load_factor (g W T L V γ iw a : ℝ) (hg : 0 < g) (hW : 0 < W) (hV : 0 < V)
    (hγ : 0 < cos γ) :
    out_mission_flight_path_angle_rate g W T L V γ iw a = 0 ↔ out_load_factor W T L γ iw a = 1 := by
  simp only [out_mission_flight_path_angle_rate, out_load_factor, load_factor]
  rw [div_eq_one_iff_eq (by positivity), div_eq_zero_iff, mul_eq_zero]
  constructor
  · rintro ((h | h) | h)
    · linarith
    · exact absurd h hg.ne'
    · exact absurd h (by positivity)
  · intro h
    left; left; linarith

/-- Level flight along the thrust line is the acceleration model of `AccelerationRates`. -/
theorem level_accel (g W T L D iw : ℝ) :
    out_mission_velocity_rate g W T L D 0 iw iw =
      Comp.MissionTwoDofOdeAccelEom.AccelerationRates.out_mission_velocity_rate g W D T := by
  simp only [out_mission_velocity_rate, thrust_along_flightpath,
    Comp.MissionTwoDofOdeAccelEom.AccelerationRates.out_mission_velocity_rate]
  simp
  ring

/-- The lift demanded by the steady climb model keeps the flight path straight. -/
theorem required_lift_straight (g W T D V a iw : ℝ) :
    out_mission_flight_path_angle_rate g W T
      (Comp.MissionTwoDofOdeFlightEom.EOMRates.out_required_lift T D W (thrustAngle a iw)) V
      (Comp.MissionTwoDofOdeFlightEom.EOMRates.out_mission_flight_path_angle T D W) iw a = 0 := by
  simp only [out_mission_flight_path_angle_rate, thrust_across_flightpath, thrustAngle,
    Comp.MissionTwoDofOdeFlightEom.EOMRates.out_required_lift,
    Comp.MissionTwoDofOdeFlightEom.EOMRates.out_mission_flight_path_angle]
  ring

/-- In the steady climb of `EOMRates` the speed of the full equations changes by exactly the thrust lost to
the thrust angle. -/
theorem climb_speed_error (g W T D V a iw : ℝ) (hW : W ≠ 0) (h1 : -1 ≤ (T - D) / W) (h2 : (T - D) / W ≤ 1) (L : ℝ) :
    out_mission_velocity_rate g W T L D
      (Comp.MissionTwoDofOdeFlightEom.EOMRates.out_mission_flight_path_angle T D W) iw a =
      -(T * (1 - cos (thrustAngle a iw)) * g / W) := by
  simp only [out_mission_velocity_rate, thrust_along_flightpath, thrustAngle,
    Comp.MissionTwoDofOdeFlightEom.EOMRates.out_mission_flight_path_angle,
    Comp.MissionTwoDofOdeFlightEom.EOMRates.gamma, sin_arcsin h1 h2]
  field_simp
  ring

/-- So the climb called steady loses speed in the full equations of motion when the thrust line is inclined. -/
theorem steady_climb_violated : ∃ g W T D a iw L : ℝ, 0 < g ∧ 0 < W ∧ 0 < T ∧ -1 ≤ (T - D) / W ∧ (T - D) / W ≤ 1 ∧
    out_mission_velocity_rate g W T L D
      (Comp.MissionTwoDofOdeFlightEom.EOMRates.out_mission_flight_path_angle T D W) iw a < 0 := by
  refine ⟨1, 10, 2, 1, 60, 0, 0, by norm_num, by norm_num, by norm_num, by norm_num, by norm_num, ?_⟩
  rw [climb_speed_error _ _ _ _ 0 _ _ (by norm_num) (by norm_num) (by norm_num)]
  have : thrustAngle 60 0 = π / 3 := by unfold thrustAngle; ring
  rw [this, cos_pi_div_three]
  norm_num

/-- With thrust along the path it stays steady. -/
theorem steady_climb_partial (g W T D iw L : ℝ) (hW : W ≠ 0) (h1 : -1 ≤ (T - D) / W) (h2 : (T - D) / W ≤ 1) :
    out_mission_velocity_rate g W T L D
      (Comp.MissionTwoDofOdeFlightEom.EOMRates.out_mission_flight_path_angle T D W) iw iw = 0 := by
  rw [climb_speed_error _ _ _ _ 0 _ _ hW h1 h2]
  simp [thrustAngle]

end FlightPath

namespace Takeoff
open Comp.MissionEnergyStateOdeTakeoffEom

/-- Velocity rate and flight path angle rate of the detailed takeoff are the time derivatives of speed and
flight path angle of any motion with the given horizontal and vertical accelerations. -/
theorem rates_kinematic (x' h' : ℝ → ℝ) (t ax ah : ℝ) (hx : HasDerivAt x' ax t) (hh : HasDerivAt h' ah t)
    (pos : 0 < x' t) :
    HasDerivAt (fun s => sqrt (x' s ^ 2 + h' s ^ 2)) (VelocityRate.out_mission_velocity_rate ax ah (x' t) (h' t)) t ∧
    HasDerivAt (fun s => arctan (h' s / x' s))
      (FlightPathAngleRate.out_mission_flight_path_angle_rate (x' t) (h' t) ax ah) t := by
  have q : 0 < x' t ^ 2 + h' t ^ 2 := by positivity
  constructor
  · have := ((hx.pow 2).add (hh.pow 2)).sqrt (by simpa using q.ne')
    refine this.congr_deriv ?_
    simp only [VelocityRate.out_mission_velocity_rate, VelocityRate.v_mag, Pi.add_apply, Pi.pow_apply]
    have hs : sqrt (x' t ^ 2 + h' t ^ 2) ≠ 0 := (sqrt_pos.2 q).ne'
    field_simp
    norm_num
    ring
  · have := (hh.div hx pos.ne').arctan
    refine this.congr_deriv ?_
    simp only [FlightPathAngleRate.out_mission_flight_path_angle_rate, FlightPathAngleRate.x_]
    have h1 : x' t ^ 2 + h' t ^ 2 ≠ 0 := q.ne'
    have h2 : (1 + (h' t / x' t) ^ 2) = (x' t ^ 2 + h' t ^ 2) / x' t ^ 2 := by
      field_simp
    simp only [Pi.div_apply]
    rw [h2]
    field_simp

example : HasDerivAt (fun s : ℝ => 70 + 2 * s) 2 0 ∧ HasDerivAt (fun s : ℝ => 3 * s) 3 0 ∧
    0 < (fun s : ℝ => 70 + 2 * s) 0 := by
  refine ⟨?_, ?_, by norm_num⟩
  · simpa using ((hasDerivAt_id (0 : ℝ)).const_mul 2).const_add 70
  · simpa using (hasDerivAt_id (0 : ℝ)).const_mul 3

/-- The detailed takeoff in the air (forces, accelerations, rates) gives the same speed and path angle rates as
the two-degree-of-freedom equations for the same weight and thrust angle. -/
theorem climbing_agrees (g m T L D V γ iT a0 α iw a : ℝ) (hg : g ≠ 0) (hm : m ≠ 0) (hV : 0 < V)
    (hα : α - a0 + iT = FlightPath.thrustAngle a iw) :
    VelocityRate.out_mission_velocity_rate
        (Accelerations.out_acceleration_horizontal m (SumForces_climbing.out_forces_horizontal iT a0 L T D α γ))
        (Accelerations.out_acceleration_vertical m (SumForces_climbing.out_forces_vertical g iT a0 m L T D α γ))
        (DistanceRates_climbing.out_mission_distance_rate V γ)
        (DistanceRates_climbing.out_mission_altitude_rate V γ) =
      Comp.MissionTwoDofOdeFlightPathEom.FlightPathEOM_no_groundroll.out_mission_velocity_rate
        g (m * g) T L D γ iw a ∧
    FlightPathAngleRate.out_mission_flight_path_angle_rate
        (DistanceRates_climbing.out_mission_distance_rate V γ)
        (DistanceRates_climbing.out_mission_altitude_rate V γ)
        (Accelerations.out_acceleration_horizontal m (SumForces_climbing.out_forces_horizontal iT a0 L T D α γ))
        (Accelerations.out_acceleration_vertical m (SumForces_climbing.out_forces_vertical g iT a0 m L T D α γ)) =
      Comp.MissionTwoDofOdeFlightPathEom.FlightPathEOM_no_groundroll.out_mission_flight_path_angle_rate
        g (m * g) T L V γ iw a := by
  have cs := sin_sq_add_cos_sq γ
  have v2 : (cos γ * V) ^ 2 + (sin γ * V) ^ 2 = V ^ 2 := by linear_combination V ^ 2 * cs
  have ang : SumForces_climbing.angle iT a0 α γ = FlightPath.thrustAngle a iw + γ := by
    rw [← hα]; rfl
  simp only [VelocityRate.out_mission_velocity_rate, VelocityRate.v_mag,
    FlightPathAngleRate.out_mission_flight_path_angle_rate, FlightPathAngleRate.x_,
    Accelerations.out_acceleration_horizontal, Accelerations.out_acceleration_vertical, Accelerations.a_h,
    Accelerations.a_v, SumForces_climbing.out_forces_horizontal, SumForces_climbing.out_forces_vertical,
    SumForces_climbing.f_h, SumForces_climbing.f_v, SumForces_climbing.t_h, SumForces_climbing.t_v,
    SumForces_climbing.c_gamma, SumForces_climbing.s_gamma, SumForces_climbing.weight, ang,
    DistanceRates_climbing.out_mission_distance_rate, DistanceRates_climbing.out_mission_altitude_rate,
    DistanceRates_climbing.range_rate, DistanceRates_climbing.altitude_rate, DistanceRates_climbing.cgam,
    DistanceRates_climbing.sgam, v2, sqrt_sq hV.le, cos_add, sin_add,
    Comp.MissionTwoDofOdeFlightPathEom.FlightPathEOM_no_groundroll.out_mission_velocity_rate,
    Comp.MissionTwoDofOdeFlightPathEom.FlightPathEOM_no_groundroll.out_mission_flight_path_angle_rate,
    Comp.MissionTwoDofOdeFlightPathEom.FlightPathEOM_no_groundroll.thrust_along_flightpath,
    Comp.MissionTwoDofOdeFlightPathEom.FlightPathEOM_no_groundroll.thrust_across_flightpath]
  have e : (a - iw) * π / 180 = FlightPath.thrustAngle a iw := rfl
  rw [e]
  generalize FlightPath.thrustAngle a iw = θ
  have hV' := hV.ne'
  constructor
  · field_simp
    linear_combination (T * cos θ - D) * cs
  · field_simp
    linear_combination (T * sin θ + L) * cs

/-- The same on the ground, thrust along the runway. -/
theorem rolling_agrees (g m T L D V iw μ : ℝ) (hg : g ≠ 0) (hm : m ≠ 0) :
    Accelerations.out_acceleration_horizontal m (SumForces_no_climbing.out_forces_horizontal g 0 μ m L T D) =
      Comp.MissionTwoDofOdeFlightPathEom.FlightPathEOM_groundroll.out_mission_velocity_rate
        g μ (m * g) T L D 0 iw ∧
    DistanceRates_no_climbing.out_mission_distance_rate V =
      Comp.MissionTwoDofOdeFlightPathEom.FlightPathEOM_groundroll.out_mission_distance_rate V 0 := by
  simp only [Accelerations.out_acceleration_horizontal, Accelerations.a_h, SumForces_no_climbing.out_forces_horizontal,
    SumForces_no_climbing.f_h, SumForces_no_climbing.t_h, SumForces_no_climbing.t_v, SumForces_no_climbing.weight,
    Comp.MissionTwoDofOdeFlightPathEom.FlightPathEOM_groundroll.out_mission_velocity_rate,
    Comp.MissionTwoDofOdeFlightPathEom.FlightPathEOM_groundroll.thrust_along_flightpath,
    Comp.MissionTwoDofOdeFlightPathEom.FlightPathEOM_groundroll.thrust_across_flightpath,
    Comp.MissionTwoDofOdeFlightPathEom.FlightPathEOM_groundroll.normal_force,
    Comp.MissionTwoDofOdeFlightPathEom.FlightPathEOM_groundroll.out_mission_distance_rate,
    DistanceRates_no_climbing.out_mission_distance_rate]
  simp
  field_simp

/-- At the stall speed the largest lift coefficient carries the weight. -/
theorem stall_lift (g m ρ S CL : ℝ) (hg : 0 < g) (hm : 0 < m) (hρ : 0 < ρ) (hS : 0 < S) (hC : 0 < CL) :
    1 / 2 * ρ * StallSpeed.out_stall_speed g m ρ S CL ^ 2 * S * CL = m * g := by
  simp only [StallSpeed.out_stall_speed, StallSpeed.stall_speed, StallSpeed.weight]
  rw [← sqrt_eq_rpow, sq_sqrt (by positivity)]
  field_simp

example : (0 : ℝ) < 9.8 ∧ (0 : ℝ) < 70000 ∧ (0 : ℝ) < 1.2 ∧ (0 : ℝ) < 120 ∧ (0 : ℝ) < 2 := by norm_num

end Takeoff

namespace Ground

/-- Normal force, friction and acceleration of `GroundrollEOM` (solved_two_dof): the ground never pulls, and
rolling friction never accelerates. -/
theorem groundroll_friction (g W T L D γ iw a μ₁ μ₂ : ℝ) (hg : 0 ≤ g) (hW : 0 < W) (hμ : μ₁ ≤ μ₂) :
    0 ≤ Comp.MissionSolvedTwoDofOdeGroundrollEom.GroundrollEOM.out_normal_force W T L iw a ∧
    Comp.MissionSolvedTwoDofOdeGroundrollEom.GroundrollEOM.out_mission_velocity_rate g μ₂ W T L D γ iw a ≤
      Comp.MissionSolvedTwoDofOdeGroundrollEom.GroundrollEOM.out_mission_velocity_rate g μ₁ W T L D γ iw a := by
  have n0 : 0 ≤ Comp.MissionSolvedTwoDofOdeGroundrollEom.GroundrollEOM.normal_force_2 W T L iw a := by
    unfold Comp.MissionSolvedTwoDofOdeGroundrollEom.GroundrollEOM.normal_force_2
    split
    · exact le_refl _
    · linarith
  refine ⟨n0, ?_⟩
  simp only [Comp.MissionSolvedTwoDofOdeGroundrollEom.GroundrollEOM.out_mission_velocity_rate]
  have := mul_le_mul_of_nonneg_right hμ n0
  gcongr

/-- `FlightPathEOM` on the ground: friction accelerates an aircraft whose lift exceeds its weight. -/
theorem flightpath_friction_violated : ∃ g W T L D iw μ₁ μ₂ : ℝ, 0 < g ∧ 0 < W ∧ 0 ≤ μ₁ ∧ μ₁ < μ₂ ∧
    Comp.MissionTwoDofOdeFlightPathEom.FlightPathEOM_groundroll.out_normal_force W T L iw < 0 ∧
    Comp.MissionTwoDofOdeFlightPathEom.FlightPathEOM_groundroll.out_mission_velocity_rate g μ₁ W T L D 0 iw <
      Comp.MissionTwoDofOdeFlightPathEom.FlightPathEOM_groundroll.out_mission_velocity_rate g μ₂ W T L D 0 iw := by
  refine ⟨1, 1, 0, 2, 0, 0, 0, 1, ?_⟩
  simp [Comp.MissionTwoDofOdeFlightPathEom.FlightPathEOM_groundroll.out_normal_force,
    Comp.MissionTwoDofOdeFlightPathEom.FlightPathEOM_groundroll.out_mission_velocity_rate,
    Comp.MissionTwoDofOdeFlightPathEom.FlightPathEOM_groundroll.normal_force,
    Comp.MissionTwoDofOdeFlightPathEom.FlightPathEOM_groundroll.thrust_across_flightpath,
    Comp.MissionTwoDofOdeFlightPathEom.FlightPathEOM_groundroll.thrust_along_flightpath]

/-- As long as the wheels carry load both ground roll models agree. -/
theorem groundroll_agrees_partial (g W T L D γ iw μ V : ℝ) (hL : L ≤ W) :
    Comp.MissionSolvedTwoDofOdeGroundrollEom.GroundrollEOM.out_mission_velocity_rate g μ W T L D γ iw iw =
      Comp.MissionTwoDofOdeFlightPathEom.FlightPathEOM_groundroll.out_mission_velocity_rate g μ W T L D γ iw ∧
    Comp.MissionSolvedTwoDofOdeGroundrollEom.GroundrollEOM.out_normal_force W T L iw iw =
      Comp.MissionTwoDofOdeFlightPathEom.FlightPathEOM_groundroll.out_normal_force W T L iw ∧
    Comp.MissionSolvedTwoDofOdeGroundrollEom.GroundrollEOM.out_mission_distance_rate V γ =
      Comp.MissionTwoDofOdeFlightPathEom.FlightPathEOM_groundroll.out_mission_distance_rate V γ := by
  have n : Comp.MissionSolvedTwoDofOdeGroundrollEom.GroundrollEOM.normal_force_2 W T L iw iw = W - L := by
    simp [Comp.MissionSolvedTwoDofOdeGroundrollEom.GroundrollEOM.normal_force_2,
      Comp.MissionSolvedTwoDofOdeGroundrollEom.GroundrollEOM.normal_force,
      Comp.MissionSolvedTwoDofOdeGroundrollEom.GroundrollEOM.thrust_across_flightpath, hL]
  simp only [Comp.MissionSolvedTwoDofOdeGroundrollEom.GroundrollEOM.out_mission_velocity_rate,
    Comp.MissionSolvedTwoDofOdeGroundrollEom.GroundrollEOM.out_normal_force, n,
    Comp.MissionSolvedTwoDofOdeGroundrollEom.GroundrollEOM.out_mission_distance_rate,
    Comp.MissionTwoDofOdeFlightPathEom.FlightPathEOM_groundroll.out_mission_distance_rate,
    Comp.MissionTwoDofOdeFlightPathEom.FlightPathEOM_groundroll.out_normal_force,
    Comp.MissionTwoDofOdeFlightPathEom.FlightPathEOM_groundroll.out_mission_velocity_rate,
    Comp.MissionTwoDofOdeFlightPathEom.FlightPathEOM_groundroll.normal_force,
    Comp.MissionTwoDofOdeFlightPathEom.FlightPathEOM_groundroll.thrust_across_flightpath,
    Comp.MissionTwoDofOdeFlightPathEom.FlightPathEOM_groundroll.thrust_along_flightpath,
    Comp.MissionSolvedTwoDofOdeGroundrollEom.GroundrollEOM.thrust_along_flightpath]
  simp

/-- Taxi: fuel burnt plus remaining mass is the gross mass. -/
theorem taxi_balance (t ff m : ℝ) :
    Comp.MissionTwoDofOdeTaxiEom.TaxiFuelComponent.out_vehicle_mass t ff m +
      Comp.MissionTwoDofOdeTaxiEom.TaxiFuelComponent.out_taxi_fuel_consumed t ff = m := by
  simp only [Comp.MissionTwoDofOdeTaxiEom.TaxiFuelComponent.out_vehicle_mass,
    Comp.MissionTwoDofOdeTaxiEom.TaxiFuelComponent.out_taxi_fuel_consumed]
  ring

end Ground

namespace Solved

/-- `GammaComp`: for any altitude profile with slope `h'(r)` the outputs are the flight path angle and its change with
distance. -/
theorem gamma_kinematic (h' : ℝ → ℝ) (h'' r : ℝ) (h2 : HasDerivAt h' h'' r) :
    tan (Comp.MissionSolvedTwoDofOdeGammaComp.GammaComp.out_mission_flight_path_angle (h' r)) = h' r ∧
    HasDerivAt (fun s => Comp.MissionSolvedTwoDofOdeGammaComp.GammaComp.out_mission_flight_path_angle (h' s))
      (Comp.MissionSolvedTwoDofOdeGammaComp.GammaComp.out_dgam_dr (h' r) h'') r := by
  simp only [Comp.MissionSolvedTwoDofOdeGammaComp.GammaComp.out_mission_flight_path_angle,
    Comp.MissionSolvedTwoDofOdeGammaComp.GammaComp.out_dgam_dr]
  refine ⟨tan_arctan _, h2.arctan.congr_deriv ?_⟩
  rw [add_comm 1]
  field_simp

end Solved
end Verif.Phys
