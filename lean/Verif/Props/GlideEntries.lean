import Verif.Comp.MissionTwoDofOdeLandingEom1
import Verif.Props.BwbVolume

/-! The declared derivatives of the glide before the landing that the translation left open. -/

namespace Verif.GlideEntries
open Real Verif.BwbVolume Verif.Comp.MissionTwoDofOdeLandingEom

/-! ### Chain rules for a glide speed `v`, a glide angle `θ` and an angle at touchdown `γ` -/

theorem theta_chain {v : ℝ → ℝ} {v' x r : ℝ} (hv : HasDerivAt v v' x) (h0 : 0 < v x)
    (h1 : 0 < r) (h2 : r < 60 * v x) :
    HasDerivAt (fun t => arcsin (r / (60 * v t)))
      ((1 - (r / (60 * v x)) ^ 2) ^ (-(1 / 2) : ℝ) * (-r / (60 * v x ^ 2)) * v') x := by
  have hq : HasDerivAt (fun t => r / (60 * v t)) (-r / (60 * v x ^ 2) * v') x := by
    refine deriv_as ((hasDerivAt_const x r).div (hv.const_mul 60) (by positivity)) (fun _ => rfl) ?_
    field_simp
    ring
  have a : 0 < r / (60 * v x) := by positivity
  have b : r / (60 * v x) < 1 := by rw [div_lt_one (by positivity)]; exact h2
  refine deriv_as (hasDerivAt_arcsind hq (by linarith) b) (fun _ => rfl) ?_
  have c : 0 < 1 - (r / (60 * v x)) ^ 2 := by nlinarith
  rw [show (-(1 / 2) : ℝ) = 1 / 2 - 1 by norm_num, rpow_sub c, rpow_one]
  ring

theorem theta_by_sink {v r : ℝ} (h0 : 0 < v) (h1 : 0 < r) (h2 : r < 60 * v) :
    HasDerivAt (fun t => arcsin (t / (60 * v)))
      ((1 - (r / (60 * v)) ^ 2) ^ (-(1 / 2) : ℝ) / (60 * v)) r := by
  have hq : HasDerivAt (fun t : ℝ => t / (60 * v)) (1 / (60 * v)) r :=
    deriv_as ((hasDerivAt_id r).div_const (60 * v)) (fun _ => rfl) rfl
  have a : 0 < r / (60 * v) := by positivity
  have b : r / (60 * v) < 1 := by rw [div_lt_one (by positivity)]; exact h2
  refine deriv_as (hasDerivAt_arcsind hq (by linarith) b) (fun _ => rfl) ?_
  have c : 0 < 1 - (r / (60 * v)) ^ 2 := by nlinarith
  rw [show (-(1 / 2) : ℝ) = 1 / 2 - 1 by norm_num, rpow_sub c, rpow_one]
  ring

theorem theta_range {v r : ℝ} (h0 : 0 < v) (h1 : 0 < r) (h2 : r < 60 * v) :
    0 < arcsin (r / (60 * v)) ∧ arcsin (r / (60 * v)) < π / 2 := by
  have a : 0 < r / (60 * v) := by positivity
  have b : r / (60 * v) < 1 := by rw [div_lt_one (by positivity)]; exact h2
  exact ⟨arcsin_pos.2 a, arcsin_lt_pi_div_two.2 b⟩

theorem gamma_chain {v : ℝ → ℝ} {v' x : ℝ} (s : ℝ) (hv : HasDerivAt v v' x) (h0 : 0 < v x) :
    HasDerivAt (fun t => s / v t) (-s / v x ^ 2 * v') x := by
  refine deriv_as ((hasDerivAt_const x s).div hv h0.ne') (fun _ => rfl) ?_
  ring

theorem glide_chain {θ : ℝ → ℝ} {θ' x : ℝ} (a : ℝ) (hθ : HasDerivAt θ θ' x) (h0 : 0 < θ x)
    (h1 : θ x < π / 2) :
    HasDerivAt (fun t => a / tan (θ t)) (-a / tan (θ x) ^ 2 * (1 / cos (θ x)) ^ 2 * θ') x := by
  have hc : 0 < cos (θ x) := cos_pos_of_mem_Ioo ⟨by linarith, h1⟩
  have ht : 0 < tan (θ x) := tan_pos_of_pos_of_lt_pi_div_two h0 h1
  refine deriv_as ((hasDerivAt_const x a).div ((hasDerivAt_tan hc.ne').comp x hθ) ht.ne')
    (fun _ => rfl) ?_
  simp only [Function.comp]
  field_simp
  ring

theorem flare_chain {v θ γ : ℝ → ℝ} {v' θ' γ' x : ℝ} (d : ℝ) (hv : HasDerivAt v v' x)
    (hθ : HasDerivAt θ θ' x) (hγ : HasDerivAt γ γ' x) :
    HasDerivAt (fun t => v t * v t * (θ t * θ t - γ t * γ t) / d)
      (1 / d * (2 * v x * v' * (θ x ^ 2 - γ x ^ 2) + v x ^ 2 * (2 * θ x * θ' - 2 * γ x * γ'))) x := by
  refine deriv_as (((hv.mul hv).mul ((hθ.mul hθ).sub (hγ.mul hγ))).div_const d) (fun _ => rfl) ?_
  simp only [Pi.mul_apply, Pi.sub_apply]
  ring

theorem tr_chain {v θ γ : ℝ → ℝ} {v' θ' γ' x : ℝ} (g n : ℝ) (hv : HasDerivAt v v' x)
    (hθ : HasDerivAt θ θ' x) (hγ : HasDerivAt γ γ' x) (h0 : 0 < θ x) :
    HasDerivAt (fun t => v t * v t / g / n * θ t / 2 * (1 - γ t / θ t) ^ 2)
      (1 / 2 * (2 * v x / g / n * v' * θ x + v x ^ 2 / g / n * θ') * (1 - γ x / θ x) ^ 2 +
        v x ^ 2 / g / n * θ x / 2 *
          (-2 * (1 - γ x / θ x) * (θ x * γ' - γ x * θ') / θ x ^ 2)) x := by
  refine deriv_as ((((((hv.mul hv).div_const g).div_const n).mul hθ).div_const 2).mul
    (((hγ.div hθ h0.ne').const_sub 1).pow 2)) (fun _ => rfl) ?_
  simp only [Pi.mul_apply, Pi.div_apply, Pi.pow_apply]
  norm_num
  ring

/-! ### The entries -/

variable (G ρ r m S k cl n s alt : ℝ)

/-- The inputs of a glide: positive, with a sink rate below the glide speed. -/
def Glide : Prop := 0 < ρ ∧ 0 < m ∧ 0 < S ∧ 0 < k ∧ 0 < cl ∧ 0 < r ∧
  r < 60 * GlideConditionComponent.tas_glide ρ m S k cl

example : Glide 1 60 2 1 1 1 := by
  have e : GlideConditionComponent.tas_glide 1 2 1 1 1 = 2 := by
    simp only [GlideConditionComponent.tas_glide, GlideConditionComponent.tas_stall,
      GlideConditionComponent.wing_loading_land]
    rw [show (2 * (2 / 1) / (1 * 1) : ℝ) = 2 ^ 2 by norm_num, sqrt_sq (by norm_num)]
    norm_num
  unfold Glide
  rw [e]
  norm_num

variable {ρ r m S k cl}

theorem Glide.speed (h : Glide ρ r m S k cl) : 0 < GlideConditionComponent.tas_glide ρ m S k cl := by
  obtain ⟨h1, h2, h3, h4, h5, -, -⟩ := h
  simp only [GlideConditionComponent.tas_glide, GlideConditionComponent.tas_stall,
    GlideConditionComponent.wing_loading_land]
  positivity

theorem Glide.range (h : Glide ρ r m S k cl) : 0 < GlideConditionComponent.theta ρ r m S k cl ∧
    GlideConditionComponent.theta ρ r m S k cl < π / 2 :=
  theta_range h.speed h.2.2.2.2.2.1 h.2.2.2.2.2.2

/-! By `vehicle_mass` -/

theorem speed_by_mass (h : Glide ρ r m S k cl) :
    HasDerivAt (fun t => GlideConditionComponent.tas_glide ρ t S k cl) (GlideConditionComponent.dtasglide_dweight ρ m S k cl) m :=
  GlideConditionComponent.d_landing_initial_velocity__vehicle_mass _ _ _ _ _ h.2.2.1 h.2.2.2.2.1 h.1 h.2.1

theorem theta_by_mass (h : Glide ρ r m S k cl) :
    HasDerivAt (fun t => GlideConditionComponent.out_theta ρ r t S k cl) (GlideConditionComponent.J_theta__vehicle_mass ρ r m S k cl) m :=
  deriv_as (theta_chain (speed_by_mass h) h.speed h.2.2.2.2.2.1 h.2.2.2.2.2.2) (fun _ => rfl) rfl

theorem gamma_by_mass (h : Glide ρ r m S k cl) :
    HasDerivAt (fun t => GlideConditionComponent.gamma_touchdown ρ t S k cl s)
      (GlideConditionComponent.dgammatd_dweight ρ m S k cl s) m :=
  deriv_as (gamma_chain s (speed_by_mass h) h.speed) (fun _ => rfl) rfl

theorem glide_by_mass (h : Glide ρ r m S k cl) :
    HasDerivAt (fun t => GlideConditionComponent.out_glide_distance ρ r t S k cl alt)
      (GlideConditionComponent.J_glide_distance__vehicle_mass ρ r m S k cl alt) m :=
  deriv_as (glide_chain alt (theta_by_mass h) h.range.1 h.range.2) (fun _ => rfl) rfl

theorem flare_by_mass (h : Glide ρ r m S k cl) :
    HasDerivAt (fun t => GlideConditionComponent.out_flare_alt G ρ r t S k cl n s)
      (GlideConditionComponent.J_flare_alt__vehicle_mass G ρ r m S k cl n s) m :=
  deriv_as (flare_chain (2 * G * (n - 1)) (speed_by_mass h) (theta_by_mass h) (gamma_by_mass s h))
    (fun _ => rfl) rfl

theorem tr_by_mass (h : Glide ρ r m S k cl) :
    HasDerivAt (fun t => GlideConditionComponent.out_tr_distance G ρ r t S k cl n s)
      (GlideConditionComponent.J_tr_distance__vehicle_mass G ρ r m S k cl n s) m :=
  deriv_as (tr_chain G (n - 1) (speed_by_mass h) (theta_by_mass h) (gamma_by_mass s h) h.range.1)
    (fun _ => rfl) rfl

/-! By `wing_area` -/

theorem speed_by_area (h : Glide ρ r m S k cl) :
    HasDerivAt (fun t => GlideConditionComponent.tas_glide ρ m t k cl) (GlideConditionComponent.dtasglide_dwingarea ρ m S k cl) S :=
  GlideConditionComponent.d_landing_initial_velocity__wing_area _ _ _ _ _ h.2.2.1 h.2.2.2.2.1 h.1 h.2.1

theorem theta_by_area (h : Glide ρ r m S k cl) :
    HasDerivAt (fun t => GlideConditionComponent.out_theta ρ r m t k cl) (GlideConditionComponent.J_theta__wing_area ρ r m S k cl) S :=
  deriv_as (theta_chain (speed_by_area h) h.speed h.2.2.2.2.2.1 h.2.2.2.2.2.2) (fun _ => rfl) rfl

theorem gamma_by_area (h : Glide ρ r m S k cl) :
    HasDerivAt (fun t => GlideConditionComponent.gamma_touchdown ρ m t k cl s)
      (GlideConditionComponent.dgammatd_dwingarea ρ m S k cl s) S :=
  deriv_as (gamma_chain s (speed_by_area h) h.speed) (fun _ => rfl) rfl

theorem glide_by_area (h : Glide ρ r m S k cl) :
    HasDerivAt (fun t => GlideConditionComponent.out_glide_distance ρ r m t k cl alt)
      (GlideConditionComponent.J_glide_distance__wing_area ρ r m S k cl alt) S :=
  deriv_as (glide_chain alt (theta_by_area h) h.range.1 h.range.2) (fun _ => rfl) rfl

theorem flare_by_area (h : Glide ρ r m S k cl) :
    HasDerivAt (fun t => GlideConditionComponent.out_flare_alt G ρ r m t k cl n s)
      (GlideConditionComponent.J_flare_alt__wing_area G ρ r m S k cl n s) S :=
  deriv_as (flare_chain (2 * G * (n - 1)) (speed_by_area h) (theta_by_area h) (gamma_by_area s h))
    (fun _ => rfl) rfl

theorem tr_by_area (h : Glide ρ r m S k cl) :
    HasDerivAt (fun t => GlideConditionComponent.out_tr_distance G ρ r m t k cl n s)
      (GlideConditionComponent.J_tr_distance__wing_area G ρ r m S k cl n s) S :=
  deriv_as (tr_chain G (n - 1) (speed_by_area h) (theta_by_area h) (gamma_by_area s h) h.range.1)
    (fun _ => rfl) rfl

/-! By `cl_max` -/

theorem speed_by_lift (h : Glide ρ r m S k cl) :
    HasDerivAt (fun t => GlideConditionComponent.tas_glide ρ m S k t) (GlideConditionComponent.dtasglide_dclmax ρ m S k cl) cl :=
  GlideConditionComponent.d_landing_initial_velocity__cl_max _ _ _ _ _ h.2.2.1 h.2.2.2.2.1 h.1 h.2.1

theorem theta_by_lift (h : Glide ρ r m S k cl) :
    HasDerivAt (fun t => GlideConditionComponent.out_theta ρ r m S k t) (GlideConditionComponent.J_theta__cl_max ρ r m S k cl) cl :=
  deriv_as (theta_chain (speed_by_lift h) h.speed h.2.2.2.2.2.1 h.2.2.2.2.2.2) (fun _ => rfl) rfl

theorem gamma_by_lift (h : Glide ρ r m S k cl) :
    HasDerivAt (fun t => GlideConditionComponent.gamma_touchdown ρ m S k t s)
      (GlideConditionComponent.dgammatd_dclmax ρ m S k cl s) cl :=
  deriv_as (gamma_chain s (speed_by_lift h) h.speed) (fun _ => rfl) rfl

theorem glide_by_lift (h : Glide ρ r m S k cl) :
    HasDerivAt (fun t => GlideConditionComponent.out_glide_distance ρ r m S k t alt)
      (GlideConditionComponent.J_glide_distance__cl_max ρ r m S k cl alt) cl :=
  deriv_as (glide_chain alt (theta_by_lift h) h.range.1 h.range.2) (fun _ => rfl) rfl

theorem flare_by_lift (h : Glide ρ r m S k cl) :
    HasDerivAt (fun t => GlideConditionComponent.out_flare_alt G ρ r m S k t n s)
      (GlideConditionComponent.J_flare_alt__cl_max G ρ r m S k cl n s) cl :=
  deriv_as (flare_chain (2 * G * (n - 1)) (speed_by_lift h) (theta_by_lift h) (gamma_by_lift s h))
    (fun _ => rfl) rfl

theorem tr_by_lift (h : Glide ρ r m S k cl) :
    HasDerivAt (fun t => GlideConditionComponent.out_tr_distance G ρ r m S k t n s)
      (GlideConditionComponent.J_tr_distance__cl_max G ρ r m S k cl n s) cl :=
  deriv_as (tr_chain G (n - 1) (speed_by_lift h) (theta_by_lift h) (gamma_by_lift s h) h.range.1)
    (fun _ => rfl) rfl

/-! By `atmosphere_density` -/

theorem speed_by_density (h : Glide ρ r m S k cl) :
    HasDerivAt (fun t => GlideConditionComponent.tas_glide t m S k cl) (GlideConditionComponent.dtasglide_drhoapp ρ m S k cl) ρ :=
  GlideConditionComponent.d_landing_initial_velocity__atmosphere_density _ _ _ _ _ h.2.2.1 h.2.2.2.2.1 h.1 h.2.1

theorem theta_by_density (h : Glide ρ r m S k cl) :
    HasDerivAt (fun t => GlideConditionComponent.out_theta t r m S k cl) (GlideConditionComponent.J_theta__atmosphere_density ρ r m S k cl) ρ :=
  deriv_as (theta_chain (speed_by_density h) h.speed h.2.2.2.2.2.1 h.2.2.2.2.2.2) (fun _ => rfl) rfl

theorem gamma_by_density (h : Glide ρ r m S k cl) :
    HasDerivAt (fun t => GlideConditionComponent.gamma_touchdown t m S k cl s)
      (GlideConditionComponent.dgammatd_drhoapp ρ m S k cl s) ρ :=
  deriv_as (gamma_chain s (speed_by_density h) h.speed) (fun _ => rfl) rfl

theorem glide_by_density (h : Glide ρ r m S k cl) :
    HasDerivAt (fun t => GlideConditionComponent.out_glide_distance t r m S k cl alt)
      (GlideConditionComponent.J_glide_distance__atmosphere_density ρ r m S k cl alt) ρ :=
  deriv_as (glide_chain alt (theta_by_density h) h.range.1 h.range.2) (fun _ => rfl) rfl

theorem flare_by_density (h : Glide ρ r m S k cl) :
    HasDerivAt (fun t => GlideConditionComponent.out_flare_alt G t r m S k cl n s)
      (GlideConditionComponent.J_flare_alt__atmosphere_density G ρ r m S k cl n s) ρ :=
  deriv_as (flare_chain (2 * G * (n - 1)) (speed_by_density h) (theta_by_density h) (gamma_by_density s h))
    (fun _ => rfl) rfl

theorem tr_by_density (h : Glide ρ r m S k cl) :
    HasDerivAt (fun t => GlideConditionComponent.out_tr_distance G t r m S k cl n s)
      (GlideConditionComponent.J_tr_distance__atmosphere_density G ρ r m S k cl n s) ρ :=
  deriv_as (tr_chain G (n - 1) (speed_by_density h) (theta_by_density h) (gamma_by_density s h) h.range.1)
    (fun _ => rfl) rfl

/-! By `landing_glide_to_stall_ratio` -/

theorem speed_by_ratio (h : Glide ρ r m S k cl) :
    HasDerivAt (fun t => GlideConditionComponent.tas_glide ρ m S t cl) (GlideConditionComponent.tas_stall ρ m S cl) k :=
  GlideConditionComponent.d_landing_initial_velocity__landing_glide_to_stall_ratio _ _ _ _ _ h.2.2.1 h.2.2.2.2.1 h.1 h.2.1

theorem theta_by_ratio (h : Glide ρ r m S k cl) :
    HasDerivAt (fun t => GlideConditionComponent.out_theta ρ r m S t cl) (GlideConditionComponent.J_theta__landing_glide_to_stall_ratio ρ r m S k cl) k :=
  deriv_as (theta_chain (speed_by_ratio h) h.speed h.2.2.2.2.2.1 h.2.2.2.2.2.2) (fun _ => rfl) rfl

theorem gamma_by_ratio (h : Glide ρ r m S k cl) :
    HasDerivAt (fun t => GlideConditionComponent.gamma_touchdown ρ m S t cl s)
      (GlideConditionComponent.dgammatd_dglidetostallratio ρ m S k cl s) k :=
  deriv_as (gamma_chain s (speed_by_ratio h) h.speed) (fun _ => rfl) rfl

theorem glide_by_ratio (h : Glide ρ r m S k cl) :
    HasDerivAt (fun t => GlideConditionComponent.out_glide_distance ρ r m S t cl alt)
      (GlideConditionComponent.J_glide_distance__landing_glide_to_stall_ratio ρ r m S k cl alt) k :=
  deriv_as (glide_chain alt (theta_by_ratio h) h.range.1 h.range.2) (fun _ => rfl) rfl

theorem flare_by_ratio (h : Glide ρ r m S k cl) :
    HasDerivAt (fun t => GlideConditionComponent.out_flare_alt G ρ r m S t cl n s)
      (GlideConditionComponent.J_flare_alt__landing_glide_to_stall_ratio G ρ r m S k cl n s) k :=
  deriv_as (flare_chain (2 * G * (n - 1)) (speed_by_ratio h) (theta_by_ratio h) (gamma_by_ratio s h))
    (fun _ => rfl) rfl

theorem tr_by_ratio (h : Glide ρ r m S k cl) :
    HasDerivAt (fun t => GlideConditionComponent.out_tr_distance G ρ r m S t cl n s)
      (GlideConditionComponent.J_tr_distance__landing_glide_to_stall_ratio G ρ r m S k cl n s) k :=
  deriv_as (tr_chain G (n - 1) (speed_by_ratio h) (theta_by_ratio h) (gamma_by_ratio s h) h.range.1)
    (fun _ => rfl) rfl

/-! By the maximum sink rate -/

theorem theta_by_rate (h : Glide ρ r m S k cl) :
    HasDerivAt (fun t => GlideConditionComponent.out_theta ρ t m S k cl)
      (GlideConditionComponent.J_theta__landing_maximum_sink_rate ρ r m S k cl) r :=
  deriv_as (theta_by_sink h.speed h.2.2.2.2.2.1 h.2.2.2.2.2.2) (fun _ => rfl) rfl

theorem glide_by_rate (h : Glide ρ r m S k cl) :
    HasDerivAt (fun t => GlideConditionComponent.out_glide_distance ρ t m S k cl alt)
      (GlideConditionComponent.J_glide_distance__landing_maximum_sink_rate ρ r m S k cl alt) r :=
  deriv_as (glide_chain alt (theta_by_rate h) h.range.1 h.range.2) (fun _ => rfl) rfl

theorem flare_by_rate (h : Glide ρ r m S k cl) :
    HasDerivAt (fun t => GlideConditionComponent.out_flare_alt G ρ t m S k cl n s)
      (GlideConditionComponent.J_flare_alt__landing_maximum_sink_rate G ρ r m S k cl n) r := by
  refine deriv_as (flare_chain (2 * G * (n - 1)) (hasDerivAt_const r (GlideConditionComponent.tas_glide ρ m S k cl))
    (theta_by_rate h) (hasDerivAt_const r (GlideConditionComponent.gamma_touchdown ρ m S k cl s))) (fun _ => rfl) ?_
  simp only [GlideConditionComponent.J_flare_alt__landing_maximum_sink_rate,
    GlideConditionComponent.J_theta__landing_maximum_sink_rate, GlideConditionComponent.out_theta]
  ring

theorem tr_by_rate (h : Glide ρ r m S k cl) :
    HasDerivAt (fun t => GlideConditionComponent.out_tr_distance G ρ t m S k cl n s)
      (GlideConditionComponent.J_tr_distance__landing_maximum_sink_rate G ρ r m S k cl n s) r := by
  refine deriv_as (tr_chain G (n - 1) (hasDerivAt_const r (GlideConditionComponent.tas_glide ρ m S k cl))
    (theta_by_rate h) (hasDerivAt_const r (GlideConditionComponent.gamma_touchdown ρ m S k cl s)) h.range.1)
    (fun _ => rfl) ?_
  simp only [GlideConditionComponent.J_tr_distance__landing_maximum_sink_rate,
    GlideConditionComponent.J_theta__landing_maximum_sink_rate, GlideConditionComponent.out_theta,
    GlideConditionComponent.dinter1_drateofsinkmax, GlideConditionComponent.dinter2_drateofsinkmax,
    GlideConditionComponent.inter1, GlideConditionComponent.inter2, GlideConditionComponent.rz_2]
  ring

end Verif.GlideEntries
