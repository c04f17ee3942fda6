import Verif.Model.Atmosphere
import Verif.Lemmas.Deriv
import Mathlib.Topology.Order.OrderClosed

/-! # C23: partials of the atmosphere component -/

namespace Verif
noncomputable section
open Classical Filter Topology

/-- Away from the table points the bin index is locally constant. -/
theorem bin_eventually_const (alt : List ℝ) (z : ℝ) (hz : z ∉ alt) :
    ∀ᶠ y in 𝓝 z, bin alt y = bin alt z := by
  induction alt with
  | nil => exact Eventually.of_forall fun _ => rfl
  | cons t l ih =>
    have hzt : z ≠ t := fun h => hz (h ▸ List.mem_cons_self)
    have hl := ih (fun h => hz (List.mem_cons_of_mem _ h))
    have ht : ∀ᶠ y in 𝓝 z, (t < y ↔ t < z) := by
      rcases lt_or_gt_of_ne hzt with h | h
      · filter_upwards [eventually_lt_nhds h] with y hy
        exact ⟨fun h' => absurd h' (not_lt.2 hy.le), fun h' => absurd h' (not_lt.2 h.le)⟩
      · filter_upwards [eventually_gt_nhds h] with y hy
        exact ⟨fun _ => h, fun _ => hy⟩
    filter_upwards [hl, ht] with y h1 h2
    unfold bin at h1 ⊢
    rw [List.filter_cons, List.filter_cons]
    by_cases h : t < z
    · rw [if_pos (by simpa using h2.2 h), if_pos (by simpa using h)]
      simp only [List.length_cons, h1]
    · rw [if_neg (by simpa using fun h' => h (h2.1 h')), if_neg (by simpa using h)]
      exact h1

/-- The geopotential conversion is differentiable with the derivative the code uses. -/
theorem hasDerivAt_z (c : AtmCfg) (h : ℝ) (hR : c.geometric = true → c.R0 + h ≠ 0) :
    HasDerivAt c.z (c.dzDh h) h := by
  unfold AtmCfg.z AtmCfg.dzDh
  by_cases hg : c.geometric = true
  · have hne := hR hg
    simp only [hg, if_true]
    deriv_build
    field_simp
    ring
  · simp only [hg]
    exact hasDerivAt_id' h

/-- A table lookup is differentiable away from the table points, whatever the coefficients. -/
theorem hasDerivAt_lookup (c : AtmCfg) (tab : ℕ → Cubic) (h : ℝ)
    (hR : c.geometric = true → c.R0 + h ≠ 0) (hz : c.z h ∉ c.tab.alt) :
    HasDerivAt (fun y => (tab (bin c.tab.alt (c.z y))).val (c.dx (c.z y)))
      ((tab (bin c.tab.alt (c.z h))).slope (c.dx (c.z h)) * c.dzDh h) h := by
  have hder := hasDerivAt_z c h hR
  have hloc : HasDerivAt (fun z => (tab (bin c.tab.alt z)).val (c.dx z))
      ((tab (bin c.tab.alt (c.z h))).slope (c.dx (c.z h))) (c.z h) := by
    set left := (c.tab.alt.headD 0 :: c.tab.alt).getD (bin c.tab.alt (c.z h)) 0 with hl
    have h1 : HasDerivAt (fun z => (tab (bin c.tab.alt (c.z h))).val (z - left))
        ((tab (bin c.tab.alt (c.z h))).slope (c.z h - left)) (c.z h) := by
      unfold Cubic.val Cubic.slope
      deriv_build
      ring
    refine h1.congr_of_eventuallyEq ?_
    filter_upwards [bin_eventually_const c.tab.alt (c.z h) hz] with y hy
    simp only [AtmCfg.dx, hy, hl]
  exact hloc.comp h hder

variable (c : AtmCfg) (h : ℝ) (hR : c.geometric = true → c.R0 + h ≠ 0) (hz : c.z h ∉ c.tab.alt)
include hR hz

/-- Temperature partial. -/
theorem atm_jT : HasDerivAt c.temperature (c.jT h) h := by
  have := hasDerivAt_lookup c c.tab.T h hR hz
  exact this.add_const c.dt

/-- Pressure partial. -/
theorem atm_jP : HasDerivAt c.pressure (c.jP h) h := hasDerivAt_lookup c c.tab.P h hR hz

/-- Density partial, including the temperature offset correction. -/
theorem atm_jRho (hr : c.rawDensity h ≠ 0) (hp : c.pressure h ≠ 0)
    (hs : (c.rawDensity h)⁻¹ + c.Rair * c.dt * (c.pressure h)⁻¹ ≠ 0) :
    HasDerivAt c.density (c.jRho h) h := by
  have h1 : HasDerivAt c.rawDensity (c.dRawRho h * c.dzDh h) h := hasDerivAt_lookup c c.tab.rho h hR hz
  have h2 : HasDerivAt c.pressure (c.dP h * c.dzDh h) h := hasDerivAt_lookup c c.tab.P h hR hz
  unfold AtmCfg.density AtmCfg.jRho AtmCfg.dRho
  deriv_build
  generalize (c.rawDensity h)⁻¹ + c.Rair * c.dt * (c.pressure h)⁻¹ = s at hs ⊢
  simp only [zpow_neg, zpow_ofNat]
  field_simp
  ring

/-- Speed of sound partial. -/
theorem atm_jSos (hT : 0 < c.K * c.temperature h) : HasDerivAt c.sos (c.jSos h) h := by
  have h1 : HasDerivAt c.temperature (c.dT h * c.dzDh h) h := atm_jT c h hR hz
  unfold AtmCfg.sos AtmCfg.jSos AtmCfg.dSos
  deriv_build
  · exact hT.ne'
  · norm_num
    ring

/-- Dynamic viscosity partial. -/
theorem atm_jVisc (hT : 0 < c.temperature h) (hS : c.temperature h + c.S ≠ 0) :
    HasDerivAt c.viscosity (c.jVisc h) h := by
  have h1 : HasDerivAt c.temperature (c.dT h * c.dzDh h) h := atm_jT c h hR hz
  unfold AtmCfg.viscosity AtmCfg.jVisc AtmCfg.dVisc
  deriv_build
  · exact hT.ne'
  · have e : (3 / 2 - 1 : ℝ) = 1 / 2 := by norm_num
    simp only [zpow_neg, zpow_ofNat, e]
    field_simp
    ring

/-- The true derivative of the `dsos_dh` output. -/
theorem atm_dsosDh_true (hT : 0 < c.K * c.temperature h) :
    HasDerivAt c.dsosDh
      ((-(1 / 4 * (c.K * c.temperature h) ^ (-(3 / 2) : ℝ) * (c.K * c.dT h)) * (c.tempSlopeTable h * c.K) +
        1 / 2 * (c.K * c.temperature h) ^ (-(1 / 2) : ℝ) * c.d2T h * c.K) * c.dzDh h) h := by
  have h1 : HasDerivAt c.temperature (c.dT h * c.dzDh h) h := atm_jT c h hR hz
  have h2 : HasDerivAt c.tempSlopeTable (c.d2T h * c.dzDh h) h := hasDerivAt_lookup c c.tab.dT h hR hz
  unfold AtmCfg.dsosDh
  deriv_build
  · exact hT.ne'
  · have e : (-(1 / 2) - 1 : ℝ) = -(3 / 2) := by norm_num
    rw [e]
    ring

/-- `dsos_dh` partial is exact with geopotential altitude when the slope table agrees with the
derivative of the temperature table. -/
theorem atm_jDsos_partial (hT : 0 < c.K * c.temperature h) (hgp : c.geometric = false)
    (hcons : c.tempSlopeTable h = c.dT h) : HasDerivAt c.dsosDh (c.jDsos h) h := by
  have := atm_dsosDh_true c h hR hz hT
  refine hasDerivAt_of_eq this ?_
  rw [hcons]
  unfold AtmCfg.jDsos AtmCfg.d2Sos AtmCfg.dzDh
  simp only [hgp]
  norm_num

/-- With geometric altitude the returned `dsos_dh` partial is wrong at every altitude other than 0
(and `-2 R0`), unless the bracket vanishes: the code multiplies by `dz_dh**2` instead of `dz_dh`. -/
theorem atm_jDsos_violated (hT : 0 < c.K * c.temperature h) (hgp : c.geometric = true)
    (hcons : c.tempSlopeTable h = c.dT h) (hb : c.d2Sos h ≠ 0) (hR0 : 0 < c.R0) (hh : 0 < h) :
    ¬ HasDerivAt c.dsosDh (c.jDsos h) h := by
  intro hd
  have ht := atm_dsosDh_true c h hR hz hT
  have := hd.unique ht
  rw [hcons] at this
  have e : c.d2Sos h * c.dzDh h = c.d2Sos h * c.dzDh h ^ 2 := by
    rw [show c.d2Sos h * c.dzDh h ^ 2 = c.jDsos h from rfl, this]
    unfold AtmCfg.d2Sos
    ring
  have e2 := mul_left_cancel₀ hb e
  have hlt : c.R0 / (c.R0 + h) < 1 := by rw [div_lt_one (by linarith)]; linarith
  have hpos : 0 < c.R0 / (c.R0 + h) := by positivity
  have hz1 : c.dzDh h = (c.R0 / (c.R0 + h)) ^ 2 := by simp [AtmCfg.dzDh, hgp]
  have h1 : 0 < c.dzDh h := by rw [hz1]; positivity
  have h2 : c.dzDh h < 1 := by rw [hz1]; nlinarith
  nlinarith

omit hR hz

/-- A table with linear temperature: the hypotheses of the theorems above are satisfiable, and the
wrong `dsos_dh` partial is reached by a concrete atmosphere. -/
def exAtm : AtmCfg where
  tab := ⟨[0], fun _ => ⟨300, -1, 0, 0⟩, fun _ => ⟨1, 0, 0, 0⟩, fun _ => ⟨1, 0, 0, 0⟩, fun _ => ⟨-1, 0, 0, 0⟩⟩
  geometric := true
  R0 := 100
  dt := 0
  Rair := 1
  K := 1
  S := 110
  beta := 1

theorem exAtm_z : exAtm.z 100 = 50 := by
  simp [AtmCfg.z, exAtm]; norm_num

theorem exAtm_T : exAtm.temperature 100 = 250 := by
  simp only [AtmCfg.temperature, AtmCfg.dx, exAtm_z]
  simp [exAtm, bin, Cubic.val]
  norm_num

example : exAtm.z 100 ∉ exAtm.tab.alt := by rw [exAtm_z]; simp [exAtm]

theorem exAtm_dsos_wrong : ¬ HasDerivAt exAtm.dsosDh (exAtm.jDsos 100) 100 := by
  have hzm : exAtm.z 100 ∉ exAtm.tab.alt := by rw [exAtm_z]; simp [exAtm]
  have hdT : exAtm.dT 100 = -1 := by
    simp only [AtmCfg.dT, AtmCfg.dx, exAtm_z]; simp [exAtm, bin, Cubic.slope]
  have hd2 : exAtm.d2T 100 = 0 := by
    simp only [AtmCfg.d2T, AtmCfg.dx, exAtm_z]; simp [exAtm, bin, Cubic.slope]
  have hsl : exAtm.tempSlopeTable 100 = -1 := by
    simp only [AtmCfg.tempSlopeTable, AtmCfg.dx, exAtm_z]; simp [exAtm, bin, Cubic.val]
  have hK : exAtm.K = 1 := rfl
  refine atm_jDsos_violated exAtm 100 (fun _ => ?_) hzm ?_ rfl ?_ ?_ ?_ (by norm_num)
  · simp only [exAtm]; norm_num
  · rw [exAtm_T, hK]; norm_num
  · rw [hsl, hdT]
  · unfold AtmCfg.d2Sos
    rw [hdT, hd2, exAtm_T, hK]
    have : (0 : ℝ) < (1 * 250 : ℝ) ^ (-(3 / 2) : ℝ) := by positivity
    intro h0
    nlinarith
  · simp only [exAtm]; norm_num

end
end Verif
