import Verif.Model.Atmosphere
import Verif.Lemmas.Deriv

/-! # C24: airspeed conversions and their partials -/

namespace Verif
noncomputable section

variable (r0 rho sos : ℝ) (h0 : 0 < r0) (hr : 0 < rho) (hs : 0 < sos)
include h0 hr

theorem sqrt_ratio_pos : (0 : ℝ) < (rho / r0) ^ (1 / 2 : ℝ) := by positivity

theorem sqrt_ratio_sq : ((rho / r0) ^ (1 / 2 : ℝ)) ^ 2 = rho / r0 := by
  rw [← Real.rpow_natCast, ← Real.rpow_mul (by positivity)]; norm_num

include hs

/-- Same state from TAS and from the Mach number that TAS implies, and vice versa. -/
theorem fc_tas_mach (tas : ℝ) : fcMach r0 rho sos (fcTAS r0 rho sos tas).mach = fcTAS r0 rho sos tas := by
  simp only [fcMach, fcTAS]
  have e : sos * (tas / sos) = tas := by field_simp
  have e2 : 1 / 2 * rho * sos ^ 2 * (tas / sos) ^ 2 = 1 / 2 * rho * tas ^ 2 := by field_simp
  rw [e, e2]

theorem fc_mach_tas (mach : ℝ) : fcTAS r0 rho sos (fcMach r0 rho sos mach).tas = fcMach r0 rho sos mach := by
  simp only [fcMach, fcTAS]
  have e : sos * mach / sos = mach := by field_simp
  have e2 : 1 / 2 * rho * (sos * mach) ^ 2 = 1 / 2 * rho * sos ^ 2 * mach ^ 2 := by ring
  rw [e, e2]

theorem fc_tas_eas (tas : ℝ) : fcEAS r0 rho sos (fcTAS r0 rho sos tas).eas = fcTAS r0 rho sos tas := by
  have hp := sqrt_ratio_pos r0 rho h0 hr
  have hq := sqrt_ratio_sq r0 rho h0 hr
  simp only [fcEAS, fcTAS]
  generalize (rho / r0) ^ (1 / 2 : ℝ) = s at hp hq ⊢
  have e : tas * s / s = tas := by field_simp
  have e2 : 1 / 2 * (tas * s) ^ 2 * r0 = 1 / 2 * rho * tas ^ 2 := by
    rw [mul_pow, hq]; field_simp
  rw [e, e2]

theorem fc_eas_tas (eas : ℝ) : fcTAS r0 rho sos (fcEAS r0 rho sos eas).tas = fcEAS r0 rho sos eas := by
  have hp := sqrt_ratio_pos r0 rho h0 hr
  have hq := sqrt_ratio_sq r0 rho h0 hr
  simp only [fcEAS, fcTAS]
  generalize (rho / r0) ^ (1 / 2 : ℝ) = s at hp hq ⊢
  have e : eas / s * s = eas := by field_simp
  have e2 : 1 / 2 * rho * (eas / s) ^ 2 = 1 / 2 * eas ^ 2 * r0 := by
    rw [div_pow, hq]; field_simp
  rw [e, e2]

theorem fc_mach_eas (mach : ℝ) : fcEAS r0 rho sos (fcMach r0 rho sos mach).eas = fcMach r0 rho sos mach := by
  have h1 := fc_mach_tas r0 rho sos h0 hr hs mach
  have h2 := fc_tas_eas r0 rho sos h0 hr hs (fcMach r0 rho sos mach).tas
  rw [h1] at h2; exact h2

theorem fc_eas_mach (eas : ℝ) : fcMach r0 rho sos (fcEAS r0 rho sos eas).mach = fcEAS r0 rho sos eas := by
  have h1 := fc_eas_tas r0 rho sos h0 hr hs eas
  have h2 := fc_tas_mach r0 rho sos h0 hr hs (fcEAS r0 rho sos eas).tas
  rw [h1] at h2; exact h2

/-- Dynamic pressure is ½ρ·TAS² in every mode. -/
theorem fc_dynamic_pressure (v : ℝ) :
    (fcTAS r0 rho sos v).q = 1 / 2 * rho * (fcTAS r0 rho sos v).tas ^ 2 ∧
    (fcEAS r0 rho sos v).q = 1 / 2 * rho * (fcEAS r0 rho sos v).tas ^ 2 ∧
    (fcMach r0 rho sos v).q = 1 / 2 * rho * (fcMach r0 rho sos v).tas ^ 2 := by
  refine ⟨rfl, ?_, ?_⟩
  · have hp := sqrt_ratio_pos r0 rho h0 hr
    have hq := sqrt_ratio_sq r0 rho h0 hr
    simp only [fcEAS]
    rw [div_pow, hq]; field_simp
  · simp only [fcMach]; ring

theorem rpow_half_div : (rho / r0) ^ (1 / 2 : ℝ) = rho ^ (1 / 2 : ℝ) / r0 ^ (1 / 2 : ℝ) :=
  Real.div_rpow hr.le h0.le _

omit h0 hs in
theorem rpow_neg_half : rho ^ (-(1 / 2) : ℝ) = (rho ^ (1 / 2 : ℝ))⁻¹ := Real.rpow_neg hr.le _

omit h0 hs in
theorem rpow_three_half : rho ^ (3 / 2 : ℝ) = rho * rho ^ (1 / 2 : ℝ) := by
  rw [show (3 / 2 : ℝ) = 1 + 1 / 2 by norm_num, Real.rpow_add hr, Real.rpow_one]

/-! ## TAS given: partials of aviary/subsystems/atmosphere/flight_conditions.py:206-219 -/

theorem fcTAS_partials (tas : ℝ) :
    HasDerivAt (fun v => (fcTAS r0 rho sos v).q) (rho * tas) tas ∧
    HasDerivAt (fun r => (fcTAS r0 r sos tas).q) (1 / 2 * tas ^ 2) rho ∧
    HasDerivAt (fun v => (fcTAS r0 rho sos v).mach) (1 / sos) tas ∧
    HasDerivAt (fun s => (fcTAS r0 rho s tas).mach) (-tas / sos ^ 2) sos ∧
    HasDerivAt (fun v => (fcTAS r0 rho sos v).eas) ((rho / r0) ^ (1 / 2 : ℝ)) tas ∧
    HasDerivAt (fun r => (fcTAS r0 r sos tas).eas)
      (tas * (1 / 2) * (rho ^ (-(1 / 2) : ℝ) / r0 ^ (1 / 2 : ℝ))) rho := by
  have hs' := hs.ne'
  have h0' := h0.ne'
  simp only [fcTAS]
  refine ⟨?_, ?_, ?_, ?_, ?_, ?_⟩
  · deriv_build; push_cast; ring
  · deriv_build; ring
  · deriv_build; field_simp; ring
  · deriv_build; field_simp; ring
  · deriv_build; ring
  · deriv_build
    · positivity
    · have e : (1 / 2 - 1 : ℝ) = -(1 / 2) := by norm_num
      rw [e, Real.div_rpow hr.le h0.le, Real.div_rpow hr.le h0.le, rpow_neg_half r0 h0, rpow_neg_half rho hr]
      have : r0 = r0 ^ (1 / 2 : ℝ) * r0 ^ (1 / 2 : ℝ) := by
        rw [← Real.rpow_add h0]; norm_num
      have hp : (0 : ℝ) < r0 ^ (1 / 2 : ℝ) := by positivity
      have hp2 : (0 : ℝ) < rho ^ (1 / 2 : ℝ) := by positivity
      generalize r0 ^ (1 / 2 : ℝ) = s at *
      generalize rho ^ (1 / 2 : ℝ) = t at *
      subst this
      field_simp
      ring

/-! ## EAS given: partials of aviary/subsystems/atmosphere/flight_conditions.py:221-233 (the undeclared-value entry q/ρ is 0) -/

theorem fcEAS_partials (eas : ℝ) :
    HasDerivAt (fun v => (fcEAS r0 rho sos v).q) (eas * r0) eas ∧
    HasDerivAt (fun r => (fcEAS r0 r sos eas).q) 0 rho ∧
    HasDerivAt (fun v => (fcEAS r0 rho sos v).tas) (fcDTasEas r0 rho) eas ∧
    HasDerivAt (fun r => (fcEAS r0 r sos eas).tas) (fcDTasRho r0 rho eas) rho ∧
    HasDerivAt (fun v => (fcEAS r0 rho sos v).mach) (fcDTasEas r0 rho / sos) eas ∧
    HasDerivAt (fun r => (fcEAS r0 r sos eas).mach) (fcDTasRho r0 rho eas / sos) rho ∧
    HasDerivAt (fun s => (fcEAS r0 rho s eas).mach) (-(fcEAS r0 rho sos eas).tas / sos ^ 2) sos := by
  have hs' := hs.ne'
  have h0' := h0.ne'
  have hp := (sqrt_ratio_pos r0 rho h0 hr).ne'
  have hrho : HasDerivAt (fun r => (fcEAS r0 r sos eas).tas) (fcDTasRho r0 rho eas) rho := by
    simp only [fcEAS, fcDTasRho]
    deriv_build
    · positivity
    · have e : (1 / 2 - 1 : ℝ) = -(1 / 2) := by norm_num
      rw [e, Real.div_rpow hr.le h0.le, Real.div_rpow hr.le h0.le, rpow_neg_half r0 h0, rpow_neg_half rho hr, rpow_three_half rho hr]
      have e1 : r0 = r0 ^ (1 / 2 : ℝ) * r0 ^ (1 / 2 : ℝ) := by
        rw [← Real.rpow_add h0]; norm_num
      have e2 : rho = rho ^ (1 / 2 : ℝ) * rho ^ (1 / 2 : ℝ) := by
        rw [← Real.rpow_add hr]; norm_num
      have hp : (0 : ℝ) < r0 ^ (1 / 2 : ℝ) := by positivity
      have hp2 : (0 : ℝ) < rho ^ (1 / 2 : ℝ) := by positivity
      generalize r0 ^ (1 / 2 : ℝ) = s at *
      generalize rho ^ (1 / 2 : ℝ) = t at *
      subst e1 e2
      field_simp
      ring
  have heas : HasDerivAt (fun v => (fcEAS r0 rho sos v).tas) (fcDTasEas r0 rho) eas := by
    simp only [fcEAS, fcDTasEas]
    deriv_build
    field_simp; ring
  refine ⟨?_, ?_, heas, hrho, heas.div_const sos, hrho.div_const sos, ?_⟩
  · simp only [fcEAS]; deriv_build; push_cast; ring
  · simp only [fcEAS]; exact hasDerivAt_const _ _
  · simp only [fcEAS]; deriv_build; field_simp; ring

/-! ## Mach given: partials of aviary/subsystems/atmosphere/flight_conditions.py:235-252 -/

theorem fcMach_partials (mach : ℝ) :
    HasDerivAt (fun s => (fcMach r0 rho s mach).q) (rho * sos * mach ^ 2) sos ∧
    HasDerivAt (fun m => (fcMach r0 rho sos m).q) (rho * sos ^ 2 * mach) mach ∧
    HasDerivAt (fun r => (fcMach r0 r sos mach).q) (1 / 2 * sos ^ 2 * mach ^ 2) rho ∧
    HasDerivAt (fun s => (fcMach r0 rho s mach).tas) mach sos ∧
    HasDerivAt (fun m => (fcMach r0 rho sos m).tas) sos mach ∧
    HasDerivAt (fun s => (fcMach r0 rho s mach).eas) (mach * (rho / r0) ^ (1 / 2 : ℝ)) sos ∧
    HasDerivAt (fun m => (fcMach r0 rho sos m).eas) (sos * (rho / r0) ^ (1 / 2 : ℝ)) mach ∧
    HasDerivAt (fun r => (fcMach r0 r sos mach).eas)
      ((fcMach r0 rho sos mach).tas * (1 / r0) ^ (1 / 2 : ℝ) * (1 / 2) * rho ^ (-(1 / 2) : ℝ)) rho := by
  have h0' := h0.ne'
  simp only [fcMach]
  refine ⟨?_, ?_, ?_, ?_, ?_, ?_, ?_, ?_⟩
  · deriv_build; push_cast; ring
  · deriv_build; push_cast; ring
  · deriv_build; ring
  · deriv_build; ring
  · deriv_build; ring
  · deriv_build; ring
  · deriv_build; ring
  · deriv_build
    · positivity
    · have e : (1 / 2 - 1 : ℝ) = -(1 / 2) := by norm_num
      rw [e, Real.div_rpow hr.le h0.le, Real.div_rpow hr.le h0.le, Real.div_rpow zero_le_one h0.le,
        Real.one_rpow, rpow_neg_half r0 h0, rpow_neg_half rho hr]
      have e1 : r0 = r0 ^ (1 / 2 : ℝ) * r0 ^ (1 / 2 : ℝ) := by
        rw [← Real.rpow_add h0]; norm_num
      have hp : (0 : ℝ) < r0 ^ (1 / 2 : ℝ) := by positivity
      have hp2 : (0 : ℝ) < rho ^ (1 / 2 : ℝ) := by positivity
      generalize r0 ^ (1 / 2 : ℝ) = s at *
      generalize rho ^ (1 / 2 : ℝ) = t at *
      subst e1
      field_simp
      ring

omit h0 hr hs

/-- A concrete state meeting the hypotheses. -/
example : (fcMach 1 4 10 (1/2)).tas = 5 ∧ fcEAS 1 4 10 (fcMach 1 4 10 (1/2)).eas = fcMach 1 4 10 (1/2) :=
  ⟨by simp only [fcMach]; norm_num, fc_mach_eas 1 4 10 (by norm_num) (by norm_num) (by norm_num) _⟩

end
end Verif
