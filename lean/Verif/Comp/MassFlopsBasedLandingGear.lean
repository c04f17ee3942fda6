import Verif.Lemmas.CompDeriv

/-! # Partial derivatives of the components of `aviary/subsystems/mass/flops_based/landing_gear.py`

One node of a vector component is modelled over the real numbers.  Each option that selects a
branch is fixed, one namespace per choice.  `out_x` is the output `x`, `J_x__y` the entry that
`compute_partials` (or `declare_partials` with `val`) assigns, `d_x__y` the proof that the entry is
the derivative.  Inputs an output does not take as argument have no influence on it. -/

set_option linter.all false

namespace Verif.Comp.MassFlopsBasedLandingGear.AltLandingGearMass
open Real

/-- aviary/subsystems/mass/flops_based/landing_gear.py:229 -/
noncomputable def unscaled_total_gear_mass (landinggear_main_gear_oleo_length landinggear_nose_gear_oleo_length design_gross_mass : ℝ) : ℝ :=
  design_gross_mass * (((30100 + (((969 / 2500) * landinggear_main_gear_oleo_length) *
    landinggear_main_gear_oleo_length)) + (((9579 / 100000) * landinggear_nose_gear_oleo_length)
    * landinggear_nose_gear_oleo_length)) / 1000000)

/-- aviary/subsystems/mass/flops_based/landing_gear.py:238 -/
noncomputable def main_gear_mass (landinggear_main_gear_oleo_length landinggear_main_gear_mass_scaler landinggear_nose_gear_oleo_length design_gross_mass : ℝ) : ℝ :=
  ((17 / 20) * (unscaled_total_gear_mass landinggear_main_gear_oleo_length
    landinggear_nose_gear_oleo_length design_gross_mass)) * landinggear_main_gear_mass_scaler

/-- aviary/subsystems/mass/flops_based/landing_gear.py:239 -/
noncomputable def nose_gear_mass (landinggear_main_gear_oleo_length landinggear_nose_gear_oleo_length landinggear_nose_gear_mass_scaler design_gross_mass : ℝ) : ℝ :=
  ((3 / 20) * (unscaled_total_gear_mass landinggear_main_gear_oleo_length
    landinggear_nose_gear_oleo_length design_gross_mass)) * landinggear_nose_gear_mass_scaler

/-- aviary/subsystems/mass/flops_based/landing_gear.py:251 -/
noncomputable def total_gear_fact (landinggear_main_gear_oleo_length landinggear_nose_gear_oleo_length : ℝ) : ℝ :=
  ((30100 + (((969 / 2500) * landinggear_main_gear_oleo_length) *
    landinggear_main_gear_oleo_length)) + (((9579 / 100000) * landinggear_nose_gear_oleo_length)
    * landinggear_nose_gear_oleo_length)) / 1000000

/-- aviary/subsystems/mass/flops_based/landing_gear.py:256 -/
noncomputable def total_gear_weight (landinggear_main_gear_oleo_length landinggear_nose_gear_oleo_length design_gross_mass : ℝ) : ℝ :=
  design_gross_mass * (total_gear_fact landinggear_main_gear_oleo_length
    landinggear_nose_gear_oleo_length)

/-- aviary/subsystems/mass/flops_based/landing_gear.py:257 -/
noncomputable def total_gear_weight_dmain (landinggear_main_gear_oleo_length design_gross_mass : ℝ) : ℝ :=
  (design_gross_mass * (969 / 1250000000)) * landinggear_main_gear_oleo_length

/-- aviary/subsystems/mass/flops_based/landing_gear.py:258 -/
noncomputable def total_gear_weight_dnose (landinggear_nose_gear_oleo_length design_gross_mass : ℝ) : ℝ :=
  (design_gross_mass * (9579 / 50000000000)) * landinggear_nose_gear_oleo_length

/-- Output `landinggear_main_gear_mass` of `AltLandingGearMass.compute`, aviary/subsystems/mass/flops_based/landing_gear.py:241 -/
noncomputable def out_landinggear_main_gear_mass (landinggear_main_gear_oleo_length landinggear_main_gear_mass_scaler landinggear_nose_gear_oleo_length design_gross_mass : ℝ) : ℝ :=
  main_gear_mass landinggear_main_gear_oleo_length landinggear_main_gear_mass_scaler
    landinggear_nose_gear_oleo_length design_gross_mass

/-- Output `landinggear_nose_gear_mass` of `AltLandingGearMass.compute`, aviary/subsystems/mass/flops_based/landing_gear.py:242 -/
noncomputable def out_landinggear_nose_gear_mass (landinggear_main_gear_oleo_length landinggear_nose_gear_oleo_length landinggear_nose_gear_mass_scaler design_gross_mass : ℝ) : ℝ :=
  nose_gear_mass landinggear_main_gear_oleo_length landinggear_nose_gear_oleo_length
    landinggear_nose_gear_mass_scaler design_gross_mass

/-- Partial of `landinggear_main_gear_mass` with respect to `landinggear_main_gear_oleo_length` as set by `AltLandingGearMass`, aviary/subsystems/mass/flops_based/landing_gear.py:260 -/
noncomputable def J_landinggear_main_gear_mass__landinggear_main_gear_oleo_length (landinggear_main_gear_oleo_length landinggear_main_gear_mass_scaler design_gross_mass : ℝ) : ℝ :=
  ((17 / 20) * (total_gear_weight_dmain landinggear_main_gear_oleo_length design_gross_mass)) *
    landinggear_main_gear_mass_scaler

/-- Partial of `landinggear_main_gear_mass` with respect to `landinggear_nose_gear_oleo_length` as set by `AltLandingGearMass`, aviary/subsystems/mass/flops_based/landing_gear.py:264 -/
noncomputable def J_landinggear_main_gear_mass__landinggear_nose_gear_oleo_length (landinggear_main_gear_mass_scaler landinggear_nose_gear_oleo_length design_gross_mass : ℝ) : ℝ :=
  ((17 / 20) * (total_gear_weight_dnose landinggear_nose_gear_oleo_length design_gross_mass)) *
    landinggear_main_gear_mass_scaler

/-- Partial of `landinggear_main_gear_mass` with respect to `landinggear_main_gear_mass_scaler` as set by `AltLandingGearMass`, aviary/subsystems/mass/flops_based/landing_gear.py:268 -/
noncomputable def J_landinggear_main_gear_mass__landinggear_main_gear_mass_scaler (landinggear_main_gear_oleo_length landinggear_nose_gear_oleo_length design_gross_mass : ℝ) : ℝ :=
  (17 / 20) * (total_gear_weight landinggear_main_gear_oleo_length
    landinggear_nose_gear_oleo_length design_gross_mass)

/-- Partial of `landinggear_main_gear_mass` with respect to `design_gross_mass` as set by `AltLandingGearMass`, aviary/subsystems/mass/flops_based/landing_gear.py:272 -/
noncomputable def J_landinggear_main_gear_mass__design_gross_mass (landinggear_main_gear_oleo_length landinggear_main_gear_mass_scaler landinggear_nose_gear_oleo_length : ℝ) : ℝ :=
  ((17 / 20) * (total_gear_fact landinggear_main_gear_oleo_length
    landinggear_nose_gear_oleo_length)) * landinggear_main_gear_mass_scaler

/-- Partial of `landinggear_nose_gear_mass` with respect to `landinggear_main_gear_oleo_length` as set by `AltLandingGearMass`, aviary/subsystems/mass/flops_based/landing_gear.py:276 -/
noncomputable def J_landinggear_nose_gear_mass__landinggear_main_gear_oleo_length (landinggear_main_gear_oleo_length landinggear_nose_gear_mass_scaler design_gross_mass : ℝ) : ℝ :=
  ((3 / 20) * (total_gear_weight_dmain landinggear_main_gear_oleo_length design_gross_mass)) *
    landinggear_nose_gear_mass_scaler

/-- Partial of `landinggear_nose_gear_mass` with respect to `landinggear_nose_gear_oleo_length` as set by `AltLandingGearMass`, aviary/subsystems/mass/flops_based/landing_gear.py:280 -/
noncomputable def J_landinggear_nose_gear_mass__landinggear_nose_gear_oleo_length (landinggear_nose_gear_oleo_length landinggear_nose_gear_mass_scaler design_gross_mass : ℝ) : ℝ :=
  ((3 / 20) * (total_gear_weight_dnose landinggear_nose_gear_oleo_length design_gross_mass)) *
    landinggear_nose_gear_mass_scaler

/-- Partial of `landinggear_nose_gear_mass` with respect to `landinggear_nose_gear_mass_scaler` as set by `AltLandingGearMass`, aviary/subsystems/mass/flops_based/landing_gear.py:284 -/
noncomputable def J_landinggear_nose_gear_mass__landinggear_nose_gear_mass_scaler (landinggear_main_gear_oleo_length landinggear_nose_gear_oleo_length design_gross_mass : ℝ) : ℝ :=
  (3 / 20) * (total_gear_weight landinggear_main_gear_oleo_length
    landinggear_nose_gear_oleo_length design_gross_mass)

/-- Partial of `landinggear_nose_gear_mass` with respect to `design_gross_mass` as set by `AltLandingGearMass`, aviary/subsystems/mass/flops_based/landing_gear.py:288 -/
noncomputable def J_landinggear_nose_gear_mass__design_gross_mass (landinggear_main_gear_oleo_length landinggear_nose_gear_oleo_length landinggear_nose_gear_mass_scaler : ℝ) : ℝ :=
  ((3 / 20) * (total_gear_fact landinggear_main_gear_oleo_length
    landinggear_nose_gear_oleo_length)) * landinggear_nose_gear_mass_scaler

theorem d_landinggear_main_gear_mass__landinggear_main_gear_oleo_length
    (landinggear_main_gear_oleo_length landinggear_main_gear_mass_scaler
    landinggear_nose_gear_oleo_length design_gross_mass : ℝ)  :
    HasDerivAt (fun t => out_landinggear_main_gear_mass t landinggear_main_gear_mass_scaler landinggear_nose_gear_oleo_length design_gross_mass) (J_landinggear_main_gear_mass__landinggear_main_gear_oleo_length landinggear_main_gear_oleo_length landinggear_main_gear_mass_scaler design_gross_mass) landinggear_main_gear_oleo_length := by
  simp only [out_landinggear_main_gear_mass, J_landinggear_main_gear_mass__landinggear_main_gear_oleo_length, total_gear_weight_dmain, main_gear_mass, unscaled_total_gear_mass]
  (apply hasDerivAt_of_eq; on_goal 1 => (repeat' comp_step))
  all_goals try comp_side
  all_goals try simp only [mul_zero, zero_mul, add_zero, zero_add, sub_zero, zero_sub, mul_one, one_mul]
  all_goals try push_cast
  all_goals comp_eq

theorem d_landinggear_main_gear_mass__landinggear_main_gear_mass_scaler
    (landinggear_main_gear_oleo_length landinggear_main_gear_mass_scaler
    landinggear_nose_gear_oleo_length design_gross_mass : ℝ)  :
    HasDerivAt (fun t => out_landinggear_main_gear_mass landinggear_main_gear_oleo_length t landinggear_nose_gear_oleo_length design_gross_mass) (J_landinggear_main_gear_mass__landinggear_main_gear_mass_scaler landinggear_main_gear_oleo_length landinggear_nose_gear_oleo_length design_gross_mass) landinggear_main_gear_mass_scaler := by
  simp only [out_landinggear_main_gear_mass, J_landinggear_main_gear_mass__landinggear_main_gear_mass_scaler, total_gear_weight, total_gear_fact, main_gear_mass, unscaled_total_gear_mass]
  (apply hasDerivAt_of_eq; on_goal 1 => (repeat' comp_step))
  all_goals try comp_side
  all_goals try simp only [mul_zero, zero_mul, add_zero, zero_add, sub_zero, zero_sub, mul_one, one_mul]
  all_goals try push_cast
  all_goals comp_eq

theorem d_landinggear_main_gear_mass__landinggear_nose_gear_oleo_length
    (landinggear_main_gear_oleo_length landinggear_main_gear_mass_scaler
    landinggear_nose_gear_oleo_length design_gross_mass : ℝ)  :
    HasDerivAt (fun t => out_landinggear_main_gear_mass landinggear_main_gear_oleo_length landinggear_main_gear_mass_scaler t design_gross_mass) (J_landinggear_main_gear_mass__landinggear_nose_gear_oleo_length landinggear_main_gear_mass_scaler landinggear_nose_gear_oleo_length design_gross_mass) landinggear_nose_gear_oleo_length := by
  simp only [out_landinggear_main_gear_mass, J_landinggear_main_gear_mass__landinggear_nose_gear_oleo_length, total_gear_weight_dnose, main_gear_mass, unscaled_total_gear_mass]
  (apply hasDerivAt_of_eq; on_goal 1 => (repeat' comp_step))
  all_goals try comp_side
  all_goals try simp only [mul_zero, zero_mul, add_zero, zero_add, sub_zero, zero_sub, mul_one, one_mul]
  all_goals try push_cast
  all_goals comp_eq

theorem d_landinggear_main_gear_mass__design_gross_mass (landinggear_main_gear_oleo_length
    landinggear_main_gear_mass_scaler landinggear_nose_gear_oleo_length design_gross_mass : ℝ)  :
    HasDerivAt (fun t => out_landinggear_main_gear_mass landinggear_main_gear_oleo_length landinggear_main_gear_mass_scaler landinggear_nose_gear_oleo_length t) (J_landinggear_main_gear_mass__design_gross_mass landinggear_main_gear_oleo_length landinggear_main_gear_mass_scaler landinggear_nose_gear_oleo_length) design_gross_mass := by
  simp only [out_landinggear_main_gear_mass, J_landinggear_main_gear_mass__design_gross_mass, total_gear_fact, main_gear_mass, unscaled_total_gear_mass]
  (apply hasDerivAt_of_eq; on_goal 1 => (repeat' comp_step))
  all_goals try comp_side
  all_goals try simp only [mul_zero, zero_mul, add_zero, zero_add, sub_zero, zero_sub, mul_one, one_mul]
  all_goals try push_cast
  all_goals comp_eq

theorem d_landinggear_nose_gear_mass__landinggear_main_gear_oleo_length
    (landinggear_main_gear_oleo_length landinggear_nose_gear_oleo_length
    landinggear_nose_gear_mass_scaler design_gross_mass : ℝ)  :
    HasDerivAt (fun t => out_landinggear_nose_gear_mass t landinggear_nose_gear_oleo_length landinggear_nose_gear_mass_scaler design_gross_mass) (J_landinggear_nose_gear_mass__landinggear_main_gear_oleo_length landinggear_main_gear_oleo_length landinggear_nose_gear_mass_scaler design_gross_mass) landinggear_main_gear_oleo_length := by
  simp only [out_landinggear_nose_gear_mass, J_landinggear_nose_gear_mass__landinggear_main_gear_oleo_length, total_gear_weight_dmain, nose_gear_mass, unscaled_total_gear_mass]
  (apply hasDerivAt_of_eq; on_goal 1 => (repeat' comp_step))
  all_goals try comp_side
  all_goals try simp only [mul_zero, zero_mul, add_zero, zero_add, sub_zero, zero_sub, mul_one, one_mul]
  all_goals try push_cast
  all_goals comp_eq

theorem d_landinggear_nose_gear_mass__landinggear_nose_gear_oleo_length
    (landinggear_main_gear_oleo_length landinggear_nose_gear_oleo_length
    landinggear_nose_gear_mass_scaler design_gross_mass : ℝ)  :
    HasDerivAt (fun t => out_landinggear_nose_gear_mass landinggear_main_gear_oleo_length t landinggear_nose_gear_mass_scaler design_gross_mass) (J_landinggear_nose_gear_mass__landinggear_nose_gear_oleo_length landinggear_nose_gear_oleo_length landinggear_nose_gear_mass_scaler design_gross_mass) landinggear_nose_gear_oleo_length := by
  simp only [out_landinggear_nose_gear_mass, J_landinggear_nose_gear_mass__landinggear_nose_gear_oleo_length, total_gear_weight_dnose, nose_gear_mass, unscaled_total_gear_mass]
  (apply hasDerivAt_of_eq; on_goal 1 => (repeat' comp_step))
  all_goals try comp_side
  all_goals try simp only [mul_zero, zero_mul, add_zero, zero_add, sub_zero, zero_sub, mul_one, one_mul]
  all_goals try push_cast
  all_goals comp_eq

theorem d_landinggear_nose_gear_mass__landinggear_nose_gear_mass_scaler
    (landinggear_main_gear_oleo_length landinggear_nose_gear_oleo_length
    landinggear_nose_gear_mass_scaler design_gross_mass : ℝ)  :
    HasDerivAt (fun t => out_landinggear_nose_gear_mass landinggear_main_gear_oleo_length landinggear_nose_gear_oleo_length t design_gross_mass) (J_landinggear_nose_gear_mass__landinggear_nose_gear_mass_scaler landinggear_main_gear_oleo_length landinggear_nose_gear_oleo_length design_gross_mass) landinggear_nose_gear_mass_scaler := by
  simp only [out_landinggear_nose_gear_mass, J_landinggear_nose_gear_mass__landinggear_nose_gear_mass_scaler, total_gear_weight, total_gear_fact, nose_gear_mass, unscaled_total_gear_mass]
  (apply hasDerivAt_of_eq; on_goal 1 => (repeat' comp_step))
  all_goals try comp_side
  all_goals try simp only [mul_zero, zero_mul, add_zero, zero_add, sub_zero, zero_sub, mul_one, one_mul]
  all_goals try push_cast
  all_goals comp_eq

theorem d_landinggear_nose_gear_mass__design_gross_mass (landinggear_main_gear_oleo_length
    landinggear_nose_gear_oleo_length landinggear_nose_gear_mass_scaler design_gross_mass : ℝ)  :
    HasDerivAt (fun t => out_landinggear_nose_gear_mass landinggear_main_gear_oleo_length landinggear_nose_gear_oleo_length landinggear_nose_gear_mass_scaler t) (J_landinggear_nose_gear_mass__design_gross_mass landinggear_main_gear_oleo_length landinggear_nose_gear_oleo_length landinggear_nose_gear_mass_scaler) design_gross_mass := by
  simp only [out_landinggear_nose_gear_mass, J_landinggear_nose_gear_mass__design_gross_mass, total_gear_fact, nose_gear_mass, unscaled_total_gear_mass]
  (apply hasDerivAt_of_eq; on_goal 1 => (repeat' comp_step))
  all_goals try comp_side
  all_goals try simp only [mul_zero, zero_mul, add_zero, zero_add, sub_zero, zero_sub, mul_one, one_mul]
  all_goals try push_cast
  all_goals comp_eq

/-- Every partial derivative set by `AltLandingGearMass` is the derivative of its output. -/
theorem partials (landinggear_main_gear_oleo_length landinggear_main_gear_mass_scaler
    landinggear_nose_gear_oleo_length landinggear_nose_gear_mass_scaler design_gross_mass : ℝ) :
    HasDerivAt (fun t => out_landinggear_main_gear_mass t landinggear_main_gear_mass_scaler
      landinggear_nose_gear_oleo_length design_gross_mass)
      (J_landinggear_main_gear_mass__landinggear_main_gear_oleo_length
      landinggear_main_gear_oleo_length landinggear_main_gear_mass_scaler design_gross_mass)
      landinggear_main_gear_oleo_length ∧
    HasDerivAt (fun t => out_landinggear_main_gear_mass landinggear_main_gear_oleo_length t
      landinggear_nose_gear_oleo_length design_gross_mass)
      (J_landinggear_main_gear_mass__landinggear_main_gear_mass_scaler
      landinggear_main_gear_oleo_length landinggear_nose_gear_oleo_length design_gross_mass)
      landinggear_main_gear_mass_scaler ∧
    HasDerivAt (fun t => out_landinggear_main_gear_mass landinggear_main_gear_oleo_length
      landinggear_main_gear_mass_scaler t design_gross_mass)
      (J_landinggear_main_gear_mass__landinggear_nose_gear_oleo_length
      landinggear_main_gear_mass_scaler landinggear_nose_gear_oleo_length design_gross_mass)
      landinggear_nose_gear_oleo_length ∧
    HasDerivAt (fun t => out_landinggear_main_gear_mass landinggear_main_gear_oleo_length
      landinggear_main_gear_mass_scaler landinggear_nose_gear_oleo_length t)
      (J_landinggear_main_gear_mass__design_gross_mass landinggear_main_gear_oleo_length
      landinggear_main_gear_mass_scaler landinggear_nose_gear_oleo_length) design_gross_mass ∧
    HasDerivAt (fun t => out_landinggear_nose_gear_mass t landinggear_nose_gear_oleo_length
      landinggear_nose_gear_mass_scaler design_gross_mass)
      (J_landinggear_nose_gear_mass__landinggear_main_gear_oleo_length
      landinggear_main_gear_oleo_length landinggear_nose_gear_mass_scaler design_gross_mass)
      landinggear_main_gear_oleo_length ∧
    HasDerivAt (fun t => out_landinggear_nose_gear_mass landinggear_main_gear_oleo_length t
      landinggear_nose_gear_mass_scaler design_gross_mass)
      (J_landinggear_nose_gear_mass__landinggear_nose_gear_oleo_length
      landinggear_nose_gear_oleo_length landinggear_nose_gear_mass_scaler design_gross_mass)
      landinggear_nose_gear_oleo_length ∧
    HasDerivAt (fun t => out_landinggear_nose_gear_mass landinggear_main_gear_oleo_length
      landinggear_nose_gear_oleo_length t design_gross_mass)
      (J_landinggear_nose_gear_mass__landinggear_nose_gear_mass_scaler
      landinggear_main_gear_oleo_length landinggear_nose_gear_oleo_length design_gross_mass)
      landinggear_nose_gear_mass_scaler ∧
    HasDerivAt (fun t => out_landinggear_nose_gear_mass landinggear_main_gear_oleo_length
      landinggear_nose_gear_oleo_length landinggear_nose_gear_mass_scaler t)
      (J_landinggear_nose_gear_mass__design_gross_mass landinggear_main_gear_oleo_length
      landinggear_nose_gear_oleo_length landinggear_nose_gear_mass_scaler) design_gross_mass :=
  ⟨d_landinggear_main_gear_mass__landinggear_main_gear_oleo_length _ _ _ _,
    d_landinggear_main_gear_mass__landinggear_main_gear_mass_scaler _ _ _ _,
    d_landinggear_main_gear_mass__landinggear_nose_gear_oleo_length _ _ _ _,
    d_landinggear_main_gear_mass__design_gross_mass _ _ _ _,
    d_landinggear_nose_gear_mass__landinggear_main_gear_oleo_length _ _ _ _,
    d_landinggear_nose_gear_mass__landinggear_nose_gear_oleo_length _ _ _ _,
    d_landinggear_nose_gear_mass__landinggear_nose_gear_mass_scaler _ _ _ _,
    d_landinggear_nose_gear_mass__design_gross_mass _ _ _ _⟩

end Verif.Comp.MassFlopsBasedLandingGear.AltLandingGearMass

namespace Verif.Comp.MassFlopsBasedLandingGear.MainGearMass
open Real

/-- aviary/subsystems/mass/flops_based/landing_gear.py:89 -/
noncomputable def main_gear_mass (landinggear_main_gear_oleo_length landinggear_main_gear_mass_scaler design_touchdown_mass_max : ℝ) : ℝ :=
  (((117 / 10000) * (design_touchdown_mass_max ^ ((19 / 20) : ℝ))) *
    (landinggear_main_gear_oleo_length ^ ((43 / 100) : ℝ))) * landinggear_main_gear_mass_scaler

/-- aviary/subsystems/mass/flops_based/landing_gear.py:104 -/
noncomputable def landing_weight_exp (design_touchdown_mass_max : ℝ) : ℝ :=
  design_touchdown_mass_max ^ ((19 / 20) : ℝ)

/-- aviary/subsystems/mass/flops_based/landing_gear.py:105 -/
noncomputable def main_gear_length_exp (landinggear_main_gear_oleo_length : ℝ) : ℝ :=
  landinggear_main_gear_oleo_length ^ ((43 / 100) : ℝ)

/-- Output `landinggear_main_gear_mass` of `MainGearMass.compute`, aviary/subsystems/mass/flops_based/landing_gear.py:97 -/
noncomputable def out_landinggear_main_gear_mass (landinggear_main_gear_oleo_length landinggear_main_gear_mass_scaler design_touchdown_mass_max : ℝ) : ℝ :=
  main_gear_mass landinggear_main_gear_oleo_length landinggear_main_gear_mass_scaler
    design_touchdown_mass_max

/-- Partial of `landinggear_main_gear_mass` with respect to `landinggear_main_gear_oleo_length` as set by `MainGearMass`, aviary/subsystems/mass/flops_based/landing_gear.py:107 -/
noncomputable def J_landinggear_main_gear_mass__landinggear_main_gear_oleo_length (landinggear_main_gear_oleo_length landinggear_main_gear_mass_scaler design_touchdown_mass_max : ℝ) : ℝ :=
  (((5031 / 1000000) * (landing_weight_exp design_touchdown_mass_max)) *
    (landinggear_main_gear_oleo_length ^ ((-(57 / 100)) : ℝ))) *
    landinggear_main_gear_mass_scaler

/-- Partial of `landinggear_main_gear_mass` with respect to `landinggear_main_gear_mass_scaler` as set by `MainGearMass`, aviary/subsystems/mass/flops_based/landing_gear.py:114 -/
noncomputable def J_landinggear_main_gear_mass__landinggear_main_gear_mass_scaler (landinggear_main_gear_oleo_length design_touchdown_mass_max : ℝ) : ℝ :=
  ((117 / 10000) * (landing_weight_exp design_touchdown_mass_max)) * (main_gear_length_exp
    landinggear_main_gear_oleo_length)

/-- Partial of `landinggear_main_gear_mass` with respect to `design_touchdown_mass_max` as set by `MainGearMass`, aviary/subsystems/mass/flops_based/landing_gear.py:117 -/
noncomputable def J_landinggear_main_gear_mass__design_touchdown_mass_max (landinggear_main_gear_oleo_length landinggear_main_gear_mass_scaler design_touchdown_mass_max : ℝ) : ℝ :=
  (((2223 / 200000) * (design_touchdown_mass_max ^ ((-(1 / 20)) : ℝ))) * (main_gear_length_exp
    landinggear_main_gear_oleo_length)) * landinggear_main_gear_mass_scaler

theorem d_landinggear_main_gear_mass__landinggear_main_gear_oleo_length
    (landinggear_main_gear_oleo_length landinggear_main_gear_mass_scaler design_touchdown_mass_max
    : ℝ) (h0 : 0 < design_touchdown_mass_max) (h1 : 0 < landinggear_main_gear_oleo_length) :
    HasDerivAt (fun t => out_landinggear_main_gear_mass t landinggear_main_gear_mass_scaler design_touchdown_mass_max) (J_landinggear_main_gear_mass__landinggear_main_gear_oleo_length landinggear_main_gear_oleo_length landinggear_main_gear_mass_scaler design_touchdown_mass_max) landinggear_main_gear_oleo_length := by
  have e0 : ∀ x : ℝ, 0 < x → x ^ ((-(57 / 100)) : ℝ) = x ^ ((43 / 100) : ℝ) / x ^ 1 := fun x hx => rpow_down hx 1 (by norm_num)
  simp only [out_landinggear_main_gear_mass, J_landinggear_main_gear_mass__landinggear_main_gear_oleo_length, landing_weight_exp, main_gear_mass]
  (apply hasDerivAt_of_eq; on_goal 1 => (repeat' comp_step))
  all_goals try comp_side
  all_goals try simp (disch := first | assumption | positivity) only [e0]
  all_goals try simp only [mul_zero, zero_mul, add_zero, zero_add, sub_zero, zero_sub, mul_one, one_mul]
  all_goals try push_cast
  all_goals comp_eq

theorem d_landinggear_main_gear_mass__landinggear_main_gear_mass_scaler
    (landinggear_main_gear_oleo_length landinggear_main_gear_mass_scaler design_touchdown_mass_max
    : ℝ) (h0 : 0 < design_touchdown_mass_max) (h1 : 0 < landinggear_main_gear_oleo_length) :
    HasDerivAt (fun t => out_landinggear_main_gear_mass landinggear_main_gear_oleo_length t design_touchdown_mass_max) (J_landinggear_main_gear_mass__landinggear_main_gear_mass_scaler landinggear_main_gear_oleo_length design_touchdown_mass_max) landinggear_main_gear_mass_scaler := by
  simp only [out_landinggear_main_gear_mass, J_landinggear_main_gear_mass__landinggear_main_gear_mass_scaler, main_gear_length_exp, landing_weight_exp, main_gear_mass]
  (apply hasDerivAt_of_eq; on_goal 1 => (repeat' comp_step))
  all_goals try comp_side
  all_goals try simp only [mul_zero, zero_mul, add_zero, zero_add, sub_zero, zero_sub, mul_one, one_mul]
  all_goals try push_cast
  all_goals comp_eq

theorem d_landinggear_main_gear_mass__design_touchdown_mass_max (landinggear_main_gear_oleo_length
    landinggear_main_gear_mass_scaler design_touchdown_mass_max : ℝ) (h0 : 0 <
    design_touchdown_mass_max) (h1 : 0 < landinggear_main_gear_oleo_length) :
    HasDerivAt (fun t => out_landinggear_main_gear_mass landinggear_main_gear_oleo_length landinggear_main_gear_mass_scaler t) (J_landinggear_main_gear_mass__design_touchdown_mass_max landinggear_main_gear_oleo_length landinggear_main_gear_mass_scaler design_touchdown_mass_max) design_touchdown_mass_max := by
  have e0 : ∀ x : ℝ, 0 < x → x ^ ((-(1 / 20)) : ℝ) = x ^ ((19 / 20) : ℝ) / x ^ 1 := fun x hx => rpow_down hx 1 (by norm_num)
  simp only [out_landinggear_main_gear_mass, J_landinggear_main_gear_mass__design_touchdown_mass_max, main_gear_length_exp, main_gear_mass]
  (apply hasDerivAt_of_eq; on_goal 1 => (repeat' comp_step))
  all_goals try comp_side
  all_goals try simp (disch := first | assumption | positivity) only [e0]
  all_goals try simp only [mul_zero, zero_mul, add_zero, zero_add, sub_zero, zero_sub, mul_one, one_mul]
  all_goals try push_cast
  all_goals comp_eq

/-- Every partial derivative set by `MainGearMass` is the derivative of its output. -/
theorem partials (landinggear_main_gear_oleo_length landinggear_main_gear_mass_scaler
    design_touchdown_mass_max : ℝ) (h0 : 0 < design_touchdown_mass_max) (h1 : 0 <
    landinggear_main_gear_oleo_length) :
    HasDerivAt (fun t => out_landinggear_main_gear_mass t landinggear_main_gear_mass_scaler
      design_touchdown_mass_max) (J_landinggear_main_gear_mass__landinggear_main_gear_oleo_length
      landinggear_main_gear_oleo_length landinggear_main_gear_mass_scaler
      design_touchdown_mass_max) landinggear_main_gear_oleo_length ∧
    HasDerivAt (fun t => out_landinggear_main_gear_mass landinggear_main_gear_oleo_length t
      design_touchdown_mass_max) (J_landinggear_main_gear_mass__landinggear_main_gear_mass_scaler
      landinggear_main_gear_oleo_length design_touchdown_mass_max)
      landinggear_main_gear_mass_scaler ∧
    HasDerivAt (fun t => out_landinggear_main_gear_mass landinggear_main_gear_oleo_length
      landinggear_main_gear_mass_scaler t)
      (J_landinggear_main_gear_mass__design_touchdown_mass_max landinggear_main_gear_oleo_length
      landinggear_main_gear_mass_scaler design_touchdown_mass_max) design_touchdown_mass_max :=
  ⟨d_landinggear_main_gear_mass__landinggear_main_gear_oleo_length _ _ _ h0 h1,
    d_landinggear_main_gear_mass__landinggear_main_gear_mass_scaler _ _ _ h0 h1,
    d_landinggear_main_gear_mass__design_touchdown_mass_max _ _ _ h0 h1⟩

example : ∃ landinggear_main_gear_oleo_length landinggear_main_gear_mass_scaler
      design_touchdown_mass_max : ℝ,
      0 < design_touchdown_mass_max ∧
      0 < landinggear_main_gear_oleo_length :=
  ⟨1, 0, 1, by comp_example, by comp_example⟩

end Verif.Comp.MassFlopsBasedLandingGear.MainGearMass

namespace Verif.Comp.MassFlopsBasedLandingGear.NoseGearMass
open Real

/-- aviary/subsystems/mass/flops_based/landing_gear.py:152 -/
noncomputable def nose_gear_mass (landinggear_nose_gear_oleo_length landinggear_nose_gear_mass_scaler design_touchdown_mass_max : ℝ) : ℝ :=
  (((6 / 125) * (design_touchdown_mass_max ^ ((67 / 100) : ℝ))) *
    (landinggear_nose_gear_oleo_length ^ ((43 / 100) : ℝ))) * landinggear_nose_gear_mass_scaler

/-- aviary/subsystems/mass/flops_based/landing_gear.py:167 -/
noncomputable def landing_weight_exp (design_touchdown_mass_max : ℝ) : ℝ :=
  design_touchdown_mass_max ^ ((67 / 100) : ℝ)

/-- aviary/subsystems/mass/flops_based/landing_gear.py:168 -/
noncomputable def nose_gear_length_exp (landinggear_nose_gear_oleo_length : ℝ) : ℝ :=
  landinggear_nose_gear_oleo_length ^ ((43 / 100) : ℝ)

/-- Output `landinggear_nose_gear_mass` of `NoseGearMass.compute`, aviary/subsystems/mass/flops_based/landing_gear.py:160 -/
noncomputable def out_landinggear_nose_gear_mass (landinggear_nose_gear_oleo_length landinggear_nose_gear_mass_scaler design_touchdown_mass_max : ℝ) : ℝ :=
  nose_gear_mass landinggear_nose_gear_oleo_length landinggear_nose_gear_mass_scaler
    design_touchdown_mass_max

/-- Partial of `landinggear_nose_gear_mass` with respect to `landinggear_nose_gear_oleo_length` as set by `NoseGearMass`, aviary/subsystems/mass/flops_based/landing_gear.py:170 -/
noncomputable def J_landinggear_nose_gear_mass__landinggear_nose_gear_oleo_length (landinggear_nose_gear_oleo_length landinggear_nose_gear_mass_scaler design_touchdown_mass_max : ℝ) : ℝ :=
  (((129 / 6250) * (landing_weight_exp design_touchdown_mass_max)) *
    (landinggear_nose_gear_oleo_length ^ ((-(57 / 100)) : ℝ))) *
    landinggear_nose_gear_mass_scaler

/-- Partial of `landinggear_nose_gear_mass` with respect to `landinggear_nose_gear_mass_scaler` as set by `NoseGearMass`, aviary/subsystems/mass/flops_based/landing_gear.py:177 -/
noncomputable def J_landinggear_nose_gear_mass__landinggear_nose_gear_mass_scaler (landinggear_nose_gear_oleo_length design_touchdown_mass_max : ℝ) : ℝ :=
  ((6 / 125) * (landing_weight_exp design_touchdown_mass_max)) * (nose_gear_length_exp
    landinggear_nose_gear_oleo_length)

/-- Partial of `landinggear_nose_gear_mass` with respect to `design_touchdown_mass_max` as set by `NoseGearMass`, aviary/subsystems/mass/flops_based/landing_gear.py:180 -/
noncomputable def J_landinggear_nose_gear_mass__design_touchdown_mass_max (landinggear_nose_gear_oleo_length landinggear_nose_gear_mass_scaler design_touchdown_mass_max : ℝ) : ℝ :=
  (((201 / 6250) * (design_touchdown_mass_max ^ ((-(33 / 100)) : ℝ))) * (nose_gear_length_exp
    landinggear_nose_gear_oleo_length)) * landinggear_nose_gear_mass_scaler

theorem d_landinggear_nose_gear_mass__landinggear_nose_gear_oleo_length
    (landinggear_nose_gear_oleo_length landinggear_nose_gear_mass_scaler design_touchdown_mass_max
    : ℝ) (h0 : 0 < design_touchdown_mass_max) (h1 : 0 < landinggear_nose_gear_oleo_length) :
    HasDerivAt (fun t => out_landinggear_nose_gear_mass t landinggear_nose_gear_mass_scaler design_touchdown_mass_max) (J_landinggear_nose_gear_mass__landinggear_nose_gear_oleo_length landinggear_nose_gear_oleo_length landinggear_nose_gear_mass_scaler design_touchdown_mass_max) landinggear_nose_gear_oleo_length := by
  have e0 : ∀ x : ℝ, 0 < x → x ^ ((-(57 / 100)) : ℝ) = x ^ ((43 / 100) : ℝ) / x ^ 1 := fun x hx => rpow_down hx 1 (by norm_num)
  simp only [out_landinggear_nose_gear_mass, J_landinggear_nose_gear_mass__landinggear_nose_gear_oleo_length, landing_weight_exp, nose_gear_mass]
  (apply hasDerivAt_of_eq; on_goal 1 => (repeat' comp_step))
  all_goals try comp_side
  all_goals try simp (disch := first | assumption | positivity) only [e0]
  all_goals try simp only [mul_zero, zero_mul, add_zero, zero_add, sub_zero, zero_sub, mul_one, one_mul]
  all_goals try push_cast
  all_goals comp_eq

theorem d_landinggear_nose_gear_mass__landinggear_nose_gear_mass_scaler
    (landinggear_nose_gear_oleo_length landinggear_nose_gear_mass_scaler design_touchdown_mass_max
    : ℝ) (h0 : 0 < design_touchdown_mass_max) (h1 : 0 < landinggear_nose_gear_oleo_length) :
    HasDerivAt (fun t => out_landinggear_nose_gear_mass landinggear_nose_gear_oleo_length t design_touchdown_mass_max) (J_landinggear_nose_gear_mass__landinggear_nose_gear_mass_scaler landinggear_nose_gear_oleo_length design_touchdown_mass_max) landinggear_nose_gear_mass_scaler := by
  simp only [out_landinggear_nose_gear_mass, J_landinggear_nose_gear_mass__landinggear_nose_gear_mass_scaler, nose_gear_length_exp, landing_weight_exp, nose_gear_mass]
  (apply hasDerivAt_of_eq; on_goal 1 => (repeat' comp_step))
  all_goals try comp_side
  all_goals try simp only [mul_zero, zero_mul, add_zero, zero_add, sub_zero, zero_sub, mul_one, one_mul]
  all_goals try push_cast
  all_goals comp_eq

theorem d_landinggear_nose_gear_mass__design_touchdown_mass_max (landinggear_nose_gear_oleo_length
    landinggear_nose_gear_mass_scaler design_touchdown_mass_max : ℝ) (h0 : 0 <
    design_touchdown_mass_max) (h1 : 0 < landinggear_nose_gear_oleo_length) :
    HasDerivAt (fun t => out_landinggear_nose_gear_mass landinggear_nose_gear_oleo_length landinggear_nose_gear_mass_scaler t) (J_landinggear_nose_gear_mass__design_touchdown_mass_max landinggear_nose_gear_oleo_length landinggear_nose_gear_mass_scaler design_touchdown_mass_max) design_touchdown_mass_max := by
  have e0 : ∀ x : ℝ, 0 < x → x ^ ((-(33 / 100)) : ℝ) = x ^ ((67 / 100) : ℝ) / x ^ 1 := fun x hx => rpow_down hx 1 (by norm_num)
  simp only [out_landinggear_nose_gear_mass, J_landinggear_nose_gear_mass__design_touchdown_mass_max, nose_gear_length_exp, nose_gear_mass]
  (apply hasDerivAt_of_eq; on_goal 1 => (repeat' comp_step))
  all_goals try comp_side
  all_goals try simp (disch := first | assumption | positivity) only [e0]
  all_goals try simp only [mul_zero, zero_mul, add_zero, zero_add, sub_zero, zero_sub, mul_one, one_mul]
  all_goals try push_cast
  all_goals comp_eq

/-- Every partial derivative set by `NoseGearMass` is the derivative of its output. -/
theorem partials (landinggear_nose_gear_oleo_length landinggear_nose_gear_mass_scaler
    design_touchdown_mass_max : ℝ) (h0 : 0 < design_touchdown_mass_max) (h1 : 0 <
    landinggear_nose_gear_oleo_length) :
    HasDerivAt (fun t => out_landinggear_nose_gear_mass t landinggear_nose_gear_mass_scaler
      design_touchdown_mass_max) (J_landinggear_nose_gear_mass__landinggear_nose_gear_oleo_length
      landinggear_nose_gear_oleo_length landinggear_nose_gear_mass_scaler
      design_touchdown_mass_max) landinggear_nose_gear_oleo_length ∧
    HasDerivAt (fun t => out_landinggear_nose_gear_mass landinggear_nose_gear_oleo_length t
      design_touchdown_mass_max) (J_landinggear_nose_gear_mass__landinggear_nose_gear_mass_scaler
      landinggear_nose_gear_oleo_length design_touchdown_mass_max)
      landinggear_nose_gear_mass_scaler ∧
    HasDerivAt (fun t => out_landinggear_nose_gear_mass landinggear_nose_gear_oleo_length
      landinggear_nose_gear_mass_scaler t)
      (J_landinggear_nose_gear_mass__design_touchdown_mass_max landinggear_nose_gear_oleo_length
      landinggear_nose_gear_mass_scaler design_touchdown_mass_max) design_touchdown_mass_max :=
  ⟨d_landinggear_nose_gear_mass__landinggear_nose_gear_oleo_length _ _ _ h0 h1,
    d_landinggear_nose_gear_mass__landinggear_nose_gear_mass_scaler _ _ _ h0 h1,
    d_landinggear_nose_gear_mass__design_touchdown_mass_max _ _ _ h0 h1⟩

example : ∃ landinggear_nose_gear_oleo_length landinggear_nose_gear_mass_scaler
      design_touchdown_mass_max : ℝ,
      0 < design_touchdown_mass_max ∧
      0 < landinggear_nose_gear_oleo_length :=
  ⟨1, 0, 1, by comp_example, by comp_example⟩

end Verif.Comp.MassFlopsBasedLandingGear.NoseGearMass

