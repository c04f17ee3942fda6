import Verif.Comp.MissionEnergyStateOdeLandingEom
import Verif.Comp.MissionEnergyStateOdeTakeoffEom
import Mathlib.Tactic.LinearCombination

/-!
# Detailed landing and takeoff: the rates of the equations of motion follow Newton's law

The groups `FlareEOM` (aviary/mission/energy_state/ode/landing_eom.py:16-136) and `TakeoffEOM`
(aviary/mission/energy_state/ode/takeoff_eom.py:95-179) chain five components by name: distance rates, sum of
forces, accelerations, velocity rate and flight path angle rate.  `flareVdot`, `flareγdot`, … compose the
translated components exactly as the groups connect them.  The reference is Newton's law written with vectors,
independently of the components.
-/

namespace Verif.LandingEom
open Real

namespace Ref

/-- Net force along the runway on an aircraft whose thrust makes the angle `θ` with the flight path, whose flight
path makes the angle `γ` with the horizontal, drag against the motion, lift perpendicular to it, weight down. -/
noncomputable def fx (T D L γ θ : ℝ) : ℝ := T * cos (γ + θ) - D * cos γ - L * sin γ

/-- Net force upwards. -/
noncomputable def fz (T D L W γ θ : ℝ) : ℝ := T * sin (γ + θ) - D * sin γ + L * cos γ - W

/-- `(u', w')` is the acceleration of a motion with speed `V`, path angle `γ` and rates `Vdot`, `γdot`. -/
def Accel (V γ Vdot γdot u' w' : ℝ) : Prop :=
  u' = Vdot * cos γ - V * γdot * sin γ ∧ w' = Vdot * sin γ + V * γdot * cos γ

/-- `Vdot`, `γdot` are the rates of speed and path angle that Newton's law gives. -/
def Newton (m T D L W V γ θ Vdot γdot : ℝ) : Prop :=
  ∃ u' w', Accel V γ Vdot γdot u' w' ∧ m * u' = fx T D L γ θ ∧ m * w' = fz T D L W γ θ

/-- The reference is meaningful: `u'`, `w'` are the time derivatives of the velocity components. -/
theorem accel_deriv (V γ : ℝ → ℝ) (t Vdot γdot : ℝ) (hV : HasDerivAt V Vdot t) (hγ : HasDerivAt γ γdot t) :
    ∃ u' w', Accel (V t) (γ t) Vdot γdot u' w' ∧
      HasDerivAt (fun s => V s * cos (γ s)) u' t ∧ HasDerivAt (fun s => V s * sin (γ s)) w' t := by
  refine ⟨_, _, ⟨rfl, rfl⟩, ?_, ?_⟩
  · exact (hV.mul hγ.cos).congr_deriv (by ring)
  · exact (hV.mul hγ.sin).congr_deriv (by ring)

/-- Newton's law determines both rates. -/
theorem newton_iff (m T D L W V γ θ Vdot γdot : ℝ) :
    Newton m T D L W V γ θ Vdot γdot ↔
      m * Vdot = T * cos θ - D - W * sin γ ∧ m * (V * γdot) = T * sin θ + L - W * cos γ := by
  have cs := sin_sq_add_cos_sq γ
  simp only [Newton, Accel, fx, fz, cos_add, sin_add]
  constructor
  · rintro ⟨u', w', ⟨hu, hw⟩, h1, h2⟩
    subst hu hw
    constructor
    · linear_combination cos γ * h1 + sin γ * h2 + (T * cos θ - D - m * Vdot) * cs
    · linear_combination cos γ * h2 - sin γ * h1 + (T * sin θ + L - m * (V * γdot)) * cs
  · rintro ⟨h1, h2⟩
    refine ⟨_, _, ⟨rfl, rfl⟩, ?_, ?_⟩
    · linear_combination cos γ * h1 - sin γ * h2 - W * (sin γ * cos γ - sin γ * cos γ)
    · linear_combination sin γ * h1 + cos γ * h2 - W * cs

end Ref

open Comp.MissionEnergyStateOdeTakeoffEom Comp.MissionEnergyStateOdeLandingEom

/-- `velocity_rate` of the group `FlareEOM`, aviary/mission/energy_state/ode/landing_eom.py:22-95; arguments gravity, runway angle of attack,
thrust incidence, mass, lift, thrust, drag, angle of attack, flight path angle, velocity. -/
noncomputable def flareVdot (g a0 iT m L T D α γ V : ℝ) : ℝ :=
  VelocityRate.out_mission_velocity_rate
    (Accelerations.out_acceleration_horizontal m (FlareSumForces.out_forces_horizontal a0 iT L T D α γ))
    (Accelerations.out_acceleration_vertical m (FlareSumForces.out_forces_vertical g a0 iT m L T D α γ))
    (DistanceRates_climbing.out_mission_distance_rate V γ)
    (DistanceRates_climbing.out_mission_altitude_rate V γ)

/-- `flight_path_angle_rate` of the group `FlareEOM`, aviary/mission/energy_state/ode/landing_eom.py:97-111. -/
noncomputable def flareGdot (g a0 iT m L T D α γ V : ℝ) : ℝ :=
  FlightPathAngleRate.out_mission_flight_path_angle_rate
    (DistanceRates_climbing.out_mission_distance_rate V γ)
    (DistanceRates_climbing.out_mission_altitude_rate V γ)
    (Accelerations.out_acceleration_horizontal m (FlareSumForces.out_forces_horizontal a0 iT L T D α γ))
    (Accelerations.out_acceleration_vertical m (FlareSumForces.out_forces_vertical g a0 iT m L T D α γ))

/-- `velocity_rate` of the group `TakeoffEOM` in the air, aviary/mission/energy_state/ode/takeoff_eom.py:117-179. -/
noncomputable def climbVdot (g a0 iT m L T D α γ V : ℝ) : ℝ :=
  VelocityRate.out_mission_velocity_rate
    (Accelerations.out_acceleration_horizontal m (SumForces_climbing.out_forces_horizontal iT a0 L T D α γ))
    (Accelerations.out_acceleration_vertical m (SumForces_climbing.out_forces_vertical g iT a0 m L T D α γ))
    (DistanceRates_climbing.out_mission_distance_rate V γ)
    (DistanceRates_climbing.out_mission_altitude_rate V γ)

/-- `flight_path_angle_rate` of the group `TakeoffEOM` in the air. -/
noncomputable def climbGdot (g a0 iT m L T D α γ V : ℝ) : ℝ :=
  FlightPathAngleRate.out_mission_flight_path_angle_rate
    (DistanceRates_climbing.out_mission_distance_rate V γ)
    (DistanceRates_climbing.out_mission_altitude_rate V γ)
    (Accelerations.out_acceleration_horizontal m (SumForces_climbing.out_forces_horizontal iT a0 L T D α γ))
    (Accelerations.out_acceleration_vertical m (SumForces_climbing.out_forces_vertical g iT a0 m L T D α γ))

/-- `velocity_rate` of the group `TakeoffEOM` on the ground; `altitude_rate` and `forces_vertical` keep their
initial value 0 since `compute` does not set them. -/
noncomputable def rollVdot (g iT μ m L T D V : ℝ) : ℝ :=
  VelocityRate.out_mission_velocity_rate
    (Accelerations.out_acceleration_horizontal m (SumForces_no_climbing.out_forces_horizontal g iT μ m L T D))
    (Accelerations.out_acceleration_vertical m 0)
    (DistanceRates_no_climbing.out_mission_distance_rate V) 0

/-- Common form of the rates for any horizontal and vertical forces. -/
theorem rates_of_forces (m fh fv γ V : ℝ) (hm : m ≠ 0) (hV : 0 < V) :
    m * VelocityRate.out_mission_velocity_rate
        (Accelerations.out_acceleration_horizontal m fh) (Accelerations.out_acceleration_vertical m fv)
        (DistanceRates_climbing.out_mission_distance_rate V γ)
        (DistanceRates_climbing.out_mission_altitude_rate V γ) = fh * cos γ + fv * sin γ ∧
    m * (V * FlightPathAngleRate.out_mission_flight_path_angle_rate
        (DistanceRates_climbing.out_mission_distance_rate V γ)
        (DistanceRates_climbing.out_mission_altitude_rate V γ)
        (Accelerations.out_acceleration_horizontal m fh) (Accelerations.out_acceleration_vertical m fv)) =
      fv * cos γ - fh * sin γ := by
  have cs := sin_sq_add_cos_sq γ
  have v2 : (cos γ * V) ^ 2 + (sin γ * V) ^ 2 = V ^ 2 := by linear_combination V ^ 2 * cs
  simp only [VelocityRate.out_mission_velocity_rate, VelocityRate.v_mag,
    FlightPathAngleRate.out_mission_flight_path_angle_rate, FlightPathAngleRate.x_,
    Accelerations.out_acceleration_horizontal, Accelerations.out_acceleration_vertical, Accelerations.a_h,
    Accelerations.a_v, DistanceRates_climbing.out_mission_distance_rate,
    DistanceRates_climbing.out_mission_altitude_rate, DistanceRates_climbing.range_rate,
    DistanceRates_climbing.altitude_rate, DistanceRates_climbing.cgam, DistanceRates_climbing.sgam, v2,
    sqrt_sq hV.le]
  have hV' := hV.ne'
  constructor <;> field_simp

example : (60000 : ℝ) ≠ 0 ∧ (0 : ℝ) < 70 := by norm_num

/-! ## C89 -/

/-- Takeoff in the air: speed and path angle rates are those of Newton's law. -/
theorem climb_newton (g a0 iT m L T D α γ V : ℝ) (hm : m ≠ 0) (hV : 0 < V) :
    Ref.Newton m T D L (m * g) V γ (α - a0 + iT)
      (climbVdot g a0 iT m L T D α γ V) (climbGdot g a0 iT m L T D α γ V) := by
  have cs := sin_sq_add_cos_sq γ
  have h := rates_of_forces m (SumForces_climbing.out_forces_horizontal iT a0 L T D α γ)
    (SumForces_climbing.out_forces_vertical g iT a0 m L T D α γ) γ V hm hV
  rw [Ref.newton_iff]
  simp only [climbVdot, climbGdot, h.1, h.2]
  simp only [SumForces_climbing.out_forces_horizontal, SumForces_climbing.out_forces_vertical,
    SumForces_climbing.f_h, SumForces_climbing.f_v, SumForces_climbing.t_h, SumForces_climbing.t_v,
    SumForces_climbing.c_gamma, SumForces_climbing.s_gamma, SumForces_climbing.weight, SumForces_climbing.angle,
    cos_add _ γ, sin_add _ γ]
  constructor
  · linear_combination (T * cos (α - a0 + iT) - D) * cs
  · linear_combination (T * sin (α - a0 + iT) + L) * cs

example : (60000 : ℝ) ≠ 0 ∧ (0 : ℝ) < 70 := by norm_num

/-- The climb gradient forces are the forces along and across the flight path: they vanish exactly in steady
flight. -/
theorem climbGradient_rates (g a0 iT m L T D α γ V : ℝ) (hm : m ≠ 0) (hV : 0 < V) :
    ClimbGradientForces.out_climb_gradient_forces_horizontal a0 iT g m T D α γ =
        m * climbVdot g a0 iT m L T D α γ V ∧
    ClimbGradientForces.out_climb_gradient_forces_vertical a0 iT g m L T α γ =
        m * (V * climbGdot g a0 iT m L T D α γ V) := by
  have h := (Ref.newton_iff _ _ _ _ _ _ _ _ _ _).1 (climb_newton g a0 iT m L T D α γ V hm hV)
  rw [h.1, h.2]
  simp only [ClimbGradientForces.out_climb_gradient_forces_horizontal,
    ClimbGradientForces.out_climb_gradient_forces_vertical, ClimbGradientForces.f_h, ClimbGradientForces.f_v,
    ClimbGradientForces.weight, ClimbGradientForces.c_angle, ClimbGradientForces.s_angle,
    ClimbGradientForces.angle, ClimbGradientForces.c_gamma, ClimbGradientForces.s_gamma]
  constructor <;> ring

/-- Steady flight along the path is what the two climb gradient constraints ask for. -/
theorem climbGradient_steady (g a0 iT m L T D α γ V : ℝ) (hm : m ≠ 0) (hV : 0 < V) :
    (ClimbGradientForces.out_climb_gradient_forces_horizontal a0 iT g m T D α γ = 0 ∧
      ClimbGradientForces.out_climb_gradient_forces_vertical a0 iT g m L T α γ = 0) ↔
    (climbVdot g a0 iT m L T D α γ V = 0 ∧ climbGdot g a0 iT m L T D α γ V = 0) := by
  have h := climbGradient_rates g a0 iT m L T D α γ V hm hV
  rw [h.1, h.2]
  simp [hm, hV.ne']

/-- The flare as coded: the horizontal sum of forces is the retarding force, the vertical one the lifting force. -/
theorem flare_forces (g a0 iT m L T D α γ : ℝ) :
    FlareSumForces.out_forces_horizontal a0 iT L T D α γ = -Ref.fx T D L γ (α - a0 + iT) ∧
    FlareSumForces.out_forces_vertical g a0 iT m L T D α γ = Ref.fz T D L (m * g) γ (α - a0 + iT) := by
  simp only [FlareSumForces.out_forces_horizontal, FlareSumForces.out_forces_vertical, FlareSumForces.f_h,
    FlareSumForces.f_v, FlareSumForces.c_gamma, FlareSumForces.s_gamma, FlareSumForces.c_angle,
    FlareSumForces.s_angle, FlareSumForces.angle, FlareSumForces.gamma, FlareSumForces.weight, Ref.fx, Ref.fz,
    cos_neg, sin_neg, sub_neg_eq_add, add_comm γ]
  constructor <;> ring

/-- What the flare integrates, for every state: the horizontal force enters with the wrong sign. -/
theorem flare_rates (g a0 iT m L T D α γ V : ℝ) (hm : m ≠ 0) (hV : 0 < V) :
    m * flareVdot g a0 iT m L T D α γ V =
      -(Ref.fx T D L γ (α - a0 + iT) * cos γ) + Ref.fz T D L (m * g) γ (α - a0 + iT) * sin γ ∧
    m * (V * flareGdot g a0 iT m L T D α γ V) =
      Ref.fz T D L (m * g) γ (α - a0 + iT) * cos γ + Ref.fx T D L γ (α - a0 + iT) * sin γ := by
  have h := rates_of_forces m (FlareSumForces.out_forces_horizontal a0 iT L T D α γ)
    (FlareSumForces.out_forces_vertical g a0 iT m L T D α γ) γ V hm hV
  have f := flare_forces g a0 iT m L T D α γ
  rw [f.1, f.2] at h
  simp only [flareVdot, flareGdot, f.1, f.2]
  rw [h.1, h.2]
  constructor <;> ring

/-- In level flight the flare accelerates the aircraft by its drag and slows it by its thrust. -/
theorem flare_level (g a0 iT m L T D α V : ℝ) (hm : m ≠ 0) (hV : 0 < V) :
    m * flareVdot g a0 iT m L T D α 0 V = D - T * cos (α - a0 + iT) := by
  rw [(flare_rates g a0 iT m L T D α 0 V hm hV).1]
  simp [Ref.fx]

/-- The flare obeys Newton's law in exactly the states whose horizontal force is zero. -/
theorem flare_newton_iff (g a0 iT m L T D α γ V : ℝ) (hm : m ≠ 0) (hV : 0 < V) :
    Ref.Newton m T D L (m * g) V γ (α - a0 + iT)
      (flareVdot g a0 iT m L T D α γ V) (flareGdot g a0 iT m L T D α γ V) ↔
    Ref.fx T D L γ (α - a0 + iT) = 0 := by
  have cs := sin_sq_add_cos_sq γ
  have h := flare_rates g a0 iT m L T D α γ V hm hV
  simp only [Ref.Newton, Ref.Accel]
  constructor
  · rintro ⟨u', w', ⟨hu, hw⟩, h1, h2⟩
    subst hu hw
    linear_combination (-1 / 2 : ℝ) * h1 + (1 / 2 : ℝ) * cos γ * h.1 - (1 / 2 : ℝ) * sin γ * h.2 -
      (1 / 2 : ℝ) * Ref.fx T D L γ (α - a0 + iT) * cs
  · intro h0
    refine ⟨_, _, ⟨rfl, rfl⟩, ?_, ?_⟩
    · rw [h0] at h
      linear_combination cos γ * h.1 - sin γ * h.2 - h0
    · rw [h0] at h
      linear_combination sin γ * h.1 + cos γ * h.2 + Ref.fz T D L (m * g) γ (α - a0 + iT) * cs

/-- The full statement, Newton's law for the flare, fails: a gliding aircraft without thrust speeds up. -/
theorem flare_newton_violated :
    ∃ g a0 iT m L T D α γ V : ℝ, 0 < g ∧ 0 < m ∧ 0 < V ∧ 0 < D ∧ T = 0 ∧ γ = 0 ∧
      0 < flareVdot g a0 iT m L T D α γ V ∧
      ¬ Ref.Newton m T D L (m * g) V γ (α - a0 + iT)
        (flareVdot g a0 iT m L T D α γ V) (flareGdot g a0 iT m L T D α γ V) := by
  refine ⟨10, 0, 0, 60000, 600000, 0, 60000, 0, 0, 70, by norm_num, by norm_num, by norm_num, by norm_num,
    rfl, rfl, ?_, ?_⟩
  · have h := flare_level 10 0 0 60000 600000 0 60000 0 70 (by norm_num) (by norm_num)
    nlinarith
  · rw [flare_newton_iff _ _ _ _ _ _ _ _ _ _ (by norm_num) (by norm_num)]
    norm_num [Ref.fx]

/-- Newton's law holds for the vertical motion of the flare in level flight. -/
theorem flare_newton_partial (g a0 iT m L T D α V : ℝ) (hm : m ≠ 0) (hV : 0 < V) :
    m * (V * flareGdot g a0 iT m L T D α 0 V) = Ref.fz T D L (m * g) 0 (α - a0 + iT) := by
  rw [(flare_rates g a0 iT m L T D α 0 V hm hV).2]
  simp

/-- Ground roll: net force along the runway with friction `μ` times the load on the wheels. -/
theorem roll_newton (g iT μ m L T D V : ℝ) (hm : m ≠ 0) (hV : 0 < V) :
    m * rollVdot g iT μ m L T D V = T * cos iT - D - μ * (m * g - L - T * sin iT) := by
  have : sqrt (V ^ 2) = V := sqrt_sq hV.le
  simp only [rollVdot, VelocityRate.out_mission_velocity_rate, VelocityRate.v_mag,
    Accelerations.out_acceleration_horizontal, Accelerations.out_acceleration_vertical, Accelerations.a_h,
    Accelerations.a_v, SumForces_no_climbing.out_forces_horizontal, SumForces_no_climbing.f_h,
    SumForces_no_climbing.t_h, SumForces_no_climbing.t_v, SumForces_no_climbing.weight,
    DistanceRates_no_climbing.out_mission_distance_rate]
  norm_num [this]
  have hV' := hV.ne'
  field_simp
  ring

/-- Friction of the takeoff roll: it opposes the motion while the wheels carry load. -/
theorem roll_friction_partial (g iT μ m L T D V : ℝ) (hm : 0 < m) (hV : 0 < V) (hμ : 0 ≤ μ)
    (load : L + T * sin iT ≤ m * g) :
    m * rollVdot g iT μ m L T D V ≤ T * cos iT - D := by
  rw [roll_newton g iT μ m L T D V hm.ne' hV]
  nlinarith [mul_nonneg hμ (sub_nonneg.2 load)]

example : (500000 : ℝ) + 100000 * sin 0 ≤ 60000 * 10 := by norm_num

/-- The full statement, friction never accelerates, fails: with more lift than weight the wheels push. -/
theorem roll_friction_violated :
    ∃ g iT μ m L T D V : ℝ, 0 < g ∧ 0 < m ∧ 0 < V ∧ 0 < μ ∧ T * cos iT - D < m * rollVdot g iT μ m L T D V := by
  refine ⟨10, 0, 1 / 40, 60000, 700000, 100000, 50000, 80, by norm_num, by norm_num, by norm_num, by norm_num, ?_⟩
  rw [roll_newton _ _ _ _ _ _ _ _ (by norm_num) (by norm_num)]
  norm_num

/-- `GroundSumForces` (aviary/mission/energy_state/ode/landing_eom.py:411-540) does limit the friction: the retarding force is never below
`drag - thrust`, and equals it exactly when the wheels carry no load or do not rub. -/
theorem groundSum_friction (g μ m L T D : ℝ) (hμ : 0 ≤ μ) :
    D - T ≤ GroundSumForces.out_forces_horizontal g μ m L T D ∧
    (GroundSumForces.out_forces_horizontal g μ m L T D = D - T ↔ (m * g ≤ L ∨ μ = 0)) := by
  have hf : GroundSumForces.out_forces_horizontal g μ m L T D =
      (if L - m * g < 0 then -μ * (L - m * g) else 0) + D - T := rfl
  rw [hf]
  split_ifs with h
  · have hL : ¬ m * g ≤ L := by linarith
    refine ⟨by nlinarith [mul_nonneg hμ (sub_nonneg.2 (sub_neg.1 h).le)], ?_⟩
    constructor
    · intro e
      have : μ * (m * g - L) = 0 := by linarith
      rcases mul_eq_zero.1 this with h0 | h0
      · exact Or.inr h0
      · exact absurd (by linarith) hL
    · rintro (h0 | h0)
      · exact absurd h0 hL
      · rw [h0]; ring
  · refine ⟨by linarith, ?_⟩
    constructor
    · intro _; exact Or.inl (by linarith)
    · intro _; ring

/-- Glide slope forces: with thrust `T` equal to the required thrust and no perpendicular force the aircraft is in
steady flight on the glide slope, and the other way round. -/
theorem glideSlope_steady (g a0 iT m L T D α γ : ℝ) (hc : cos (α - a0 + iT) ≠ 0) (hs : sin (α - a0 + iT) ≠ 0) :
    (GlideSlopeForces.out_forces_perpendicular a0 iT g m L D α γ = 0 ∧
      GlideSlopeForces.out_required_thrust a0 iT g m L D α γ = T) ↔
    (T * cos (α - a0 + iT) - D - m * g * sin γ = 0 ∧ T * sin (α - a0 + iT) + L - m * g * cos γ = 0) := by
  simp only [GlideSlopeForces.out_forces_perpendicular, GlideSlopeForces.out_required_thrust,
    GlideSlopeForces.f_h, GlideSlopeForces.f_v, GlideSlopeForces.weight, GlideSlopeForces.c_angle,
    GlideSlopeForces.s_angle, GlideSlopeForces.angle, GlideSlopeForces.c_gamma, GlideSlopeForces.s_gamma,
    GlideSlopeForces.gamma, cos_neg, sin_neg]
  generalize cos (α - a0 + iT) = c at hc ⊢
  generalize sin (α - a0 + iT) = s at hs ⊢
  constructor
  · rintro ⟨h1, h2⟩
    have e1 : (D - m * g * -sin γ) / c = T := by linarith
    have e2 : (m * g * cos γ - L) / s = T := by linarith
    rw [div_eq_iff hc] at e1
    rw [div_eq_iff hs] at e2
    constructor <;> linarith
  · rintro ⟨h1, h2⟩
    have e1 : (D - m * g * -sin γ) / c = T := by rw [div_eq_iff hc]; linarith
    have e2 : (m * g * cos γ - L) / s = T := by rw [div_eq_iff hs]; linarith
    rw [e1, e2]
    constructor <;> ring

end Verif.LandingEom
