import Verif.Lemmas.CompDeriv

/-! # Partial derivatives of the components of `aviary/subsystems/mass/gasp_based/landing.py`

One node of a vector component is modelled over the real numbers.  Each option that selects a
branch is fixed, one namespace per choice.  `out_x` is the output `x`, `J_x__y` the entry that
`compute_partials` (or `declare_partials` with `val`) assigns, `d_x__y` the proof that the entry is
the derivative.  Inputs an output does not take as argument have no influence on it. -/

set_option linter.all false

namespace Verif.Comp.MassGaspBasedLanding.LandingGearMass
open Real

/-- Output `landinggear_main_gear_mass` of `LandingGearMass.compute`, aviary/subsystems/mass/gasp_based/landing.py:209 -/
noncomputable def out_landinggear_main_gear_mass (landinggear_main_gear_mass_fraction landinggear_total_mass : ℝ) : ℝ :=
  landinggear_main_gear_mass_fraction * landinggear_total_mass

/-- Output `landinggear_nose_gear_mass` of `LandingGearMass.compute`, aviary/subsystems/mass/gasp_based/landing.py:210 -/
noncomputable def out_landinggear_nose_gear_mass (landinggear_main_gear_mass_fraction landinggear_total_mass : ℝ) : ℝ :=
  (1 - landinggear_main_gear_mass_fraction) * landinggear_total_mass

/-- Partial of `landinggear_main_gear_mass` with respect to `landinggear_total_mass` as set by `LandingGearMass`, aviary/subsystems/mass/gasp_based/landing.py:216 -/
noncomputable def J_landinggear_main_gear_mass__landinggear_total_mass (landinggear_main_gear_mass_fraction : ℝ) : ℝ :=
  landinggear_main_gear_mass_fraction

/-- Partial of `landinggear_main_gear_mass` with respect to `landinggear_main_gear_mass_fraction` as set by `LandingGearMass`, aviary/subsystems/mass/gasp_based/landing.py:217 -/
noncomputable def J_landinggear_main_gear_mass__landinggear_main_gear_mass_fraction (landinggear_total_mass : ℝ) : ℝ :=
  landinggear_total_mass

/-- Partial of `landinggear_nose_gear_mass` with respect to `landinggear_total_mass` as set by `LandingGearMass`, aviary/subsystems/mass/gasp_based/landing.py:221 -/
noncomputable def J_landinggear_nose_gear_mass__landinggear_total_mass (landinggear_main_gear_mass_fraction : ℝ) : ℝ :=
  1 - landinggear_main_gear_mass_fraction

/-- Partial of `landinggear_nose_gear_mass` with respect to `landinggear_main_gear_mass_fraction` as set by `LandingGearMass`, aviary/subsystems/mass/gasp_based/landing.py:222 -/
noncomputable def J_landinggear_nose_gear_mass__landinggear_main_gear_mass_fraction (landinggear_total_mass : ℝ) : ℝ :=
  -landinggear_total_mass

theorem d_landinggear_main_gear_mass__landinggear_main_gear_mass_fraction
    (landinggear_main_gear_mass_fraction landinggear_total_mass : ℝ)  :
    HasDerivAt (fun t => out_landinggear_main_gear_mass t landinggear_total_mass) (J_landinggear_main_gear_mass__landinggear_main_gear_mass_fraction landinggear_total_mass) landinggear_main_gear_mass_fraction := by
  simp only [out_landinggear_main_gear_mass, J_landinggear_main_gear_mass__landinggear_main_gear_mass_fraction]
  (apply hasDerivAt_of_eq; on_goal 1 => (repeat' comp_step))
  all_goals try comp_side
  all_goals try simp only [mul_zero, zero_mul, add_zero, zero_add, sub_zero, zero_sub, mul_one, one_mul]
  all_goals try push_cast
  all_goals comp_eq

theorem d_landinggear_main_gear_mass__landinggear_total_mass (landinggear_main_gear_mass_fraction
    landinggear_total_mass : ℝ)  :
    HasDerivAt (fun t => out_landinggear_main_gear_mass landinggear_main_gear_mass_fraction t) (J_landinggear_main_gear_mass__landinggear_total_mass landinggear_main_gear_mass_fraction) landinggear_total_mass := by
  simp only [out_landinggear_main_gear_mass, J_landinggear_main_gear_mass__landinggear_total_mass]
  (apply hasDerivAt_of_eq; on_goal 1 => (repeat' comp_step))
  all_goals try comp_side
  all_goals try simp only [mul_zero, zero_mul, add_zero, zero_add, sub_zero, zero_sub, mul_one, one_mul]
  all_goals try push_cast
  all_goals comp_eq

theorem d_landinggear_nose_gear_mass__landinggear_main_gear_mass_fraction
    (landinggear_main_gear_mass_fraction landinggear_total_mass : ℝ)  :
    HasDerivAt (fun t => out_landinggear_nose_gear_mass t landinggear_total_mass) (J_landinggear_nose_gear_mass__landinggear_main_gear_mass_fraction landinggear_total_mass) landinggear_main_gear_mass_fraction := by
  simp only [out_landinggear_nose_gear_mass, J_landinggear_nose_gear_mass__landinggear_main_gear_mass_fraction]
  (apply hasDerivAt_of_eq; on_goal 1 => (repeat' comp_step))
  all_goals try comp_side
  all_goals try simp only [mul_zero, zero_mul, add_zero, zero_add, sub_zero, zero_sub, mul_one, one_mul]
  all_goals try push_cast
  all_goals comp_eq

theorem d_landinggear_nose_gear_mass__landinggear_total_mass (landinggear_main_gear_mass_fraction
    landinggear_total_mass : ℝ)  :
    HasDerivAt (fun t => out_landinggear_nose_gear_mass landinggear_main_gear_mass_fraction t) (J_landinggear_nose_gear_mass__landinggear_total_mass landinggear_main_gear_mass_fraction) landinggear_total_mass := by
  simp only [out_landinggear_nose_gear_mass, J_landinggear_nose_gear_mass__landinggear_total_mass]
  (apply hasDerivAt_of_eq; on_goal 1 => (repeat' comp_step))
  all_goals try comp_side
  all_goals try simp only [mul_zero, zero_mul, add_zero, zero_add, sub_zero, zero_sub, mul_one, one_mul]
  all_goals try push_cast
  all_goals comp_eq

/-- Every partial derivative set by `LandingGearMass` is the derivative of its output. -/
theorem partials (landinggear_main_gear_mass_fraction landinggear_total_mass : ℝ) :
    HasDerivAt (fun t => out_landinggear_main_gear_mass t landinggear_total_mass)
      (J_landinggear_main_gear_mass__landinggear_main_gear_mass_fraction landinggear_total_mass)
      landinggear_main_gear_mass_fraction ∧
    HasDerivAt (fun t => out_landinggear_main_gear_mass landinggear_main_gear_mass_fraction t)
      (J_landinggear_main_gear_mass__landinggear_total_mass landinggear_main_gear_mass_fraction)
      landinggear_total_mass ∧
    HasDerivAt (fun t => out_landinggear_nose_gear_mass t landinggear_total_mass)
      (J_landinggear_nose_gear_mass__landinggear_main_gear_mass_fraction landinggear_total_mass)
      landinggear_main_gear_mass_fraction ∧
    HasDerivAt (fun t => out_landinggear_nose_gear_mass landinggear_main_gear_mass_fraction t)
      (J_landinggear_nose_gear_mass__landinggear_total_mass landinggear_main_gear_mass_fraction)
      landinggear_total_mass :=
  ⟨d_landinggear_main_gear_mass__landinggear_main_gear_mass_fraction _ _,
    d_landinggear_main_gear_mass__landinggear_total_mass _ _,
    d_landinggear_nose_gear_mass__landinggear_main_gear_mass_fraction _ _,
    d_landinggear_nose_gear_mass__landinggear_total_mass _ _⟩

end Verif.Comp.MassGaspBasedLanding.LandingGearMass

namespace Verif.Comp.MassGaspBasedLanding.LandingMass
open Real

/-- Output `design_touchdown_mass_max` of `LandingMass.compute`, aviary/subsystems/mass/gasp_based/landing.py:27 -/
noncomputable def out_design_touchdown_mass_max (design_gross_mass design_landing_to_takeoff_mass_ratio : ℝ) : ℝ :=
  design_gross_mass * design_landing_to_takeoff_mass_ratio

/-- Partial of `design_touchdown_mass_max` with respect to `design_gross_mass` as set by `LandingMass`, aviary/subsystems/mass/gasp_based/landing.py:33 -/
noncomputable def J_design_touchdown_mass_max__design_gross_mass (design_landing_to_takeoff_mass_ratio : ℝ) : ℝ :=
  design_landing_to_takeoff_mass_ratio

/-- Partial of `design_touchdown_mass_max` with respect to `design_landing_to_takeoff_mass_ratio` as set by `LandingMass`, aviary/subsystems/mass/gasp_based/landing.py:37 -/
noncomputable def J_design_touchdown_mass_max__design_landing_to_takeoff_mass_ratio (design_gross_mass : ℝ) : ℝ :=
  design_gross_mass

theorem d_design_touchdown_mass_max__design_gross_mass (design_gross_mass
    design_landing_to_takeoff_mass_ratio : ℝ)  :
    HasDerivAt (fun t => out_design_touchdown_mass_max t design_landing_to_takeoff_mass_ratio) (J_design_touchdown_mass_max__design_gross_mass design_landing_to_takeoff_mass_ratio) design_gross_mass := by
  simp only [out_design_touchdown_mass_max, J_design_touchdown_mass_max__design_gross_mass]
  (apply hasDerivAt_of_eq; on_goal 1 => (repeat' comp_step))
  all_goals try comp_side
  all_goals try simp only [mul_zero, zero_mul, add_zero, zero_add, sub_zero, zero_sub, mul_one, one_mul]
  all_goals try push_cast
  all_goals comp_eq

theorem d_design_touchdown_mass_max__design_landing_to_takeoff_mass_ratio (design_gross_mass
    design_landing_to_takeoff_mass_ratio : ℝ)  :
    HasDerivAt (fun t => out_design_touchdown_mass_max design_gross_mass t) (J_design_touchdown_mass_max__design_landing_to_takeoff_mass_ratio design_gross_mass) design_landing_to_takeoff_mass_ratio := by
  simp only [out_design_touchdown_mass_max, J_design_touchdown_mass_max__design_landing_to_takeoff_mass_ratio]
  (apply hasDerivAt_of_eq; on_goal 1 => (repeat' comp_step))
  all_goals try comp_side
  all_goals try simp only [mul_zero, zero_mul, add_zero, zero_add, sub_zero, zero_sub, mul_one, one_mul]
  all_goals try push_cast
  all_goals comp_eq

/-- Every partial derivative set by `LandingMass` is the derivative of its output. -/
theorem partials (design_gross_mass design_landing_to_takeoff_mass_ratio : ℝ) :
    HasDerivAt (fun t => out_design_touchdown_mass_max t design_landing_to_takeoff_mass_ratio)
      (J_design_touchdown_mass_max__design_gross_mass design_landing_to_takeoff_mass_ratio)
      design_gross_mass ∧
    HasDerivAt (fun t => out_design_touchdown_mass_max design_gross_mass t)
      (J_design_touchdown_mass_max__design_landing_to_takeoff_mass_ratio design_gross_mass)
      design_landing_to_takeoff_mass_ratio :=
  ⟨d_design_touchdown_mass_max__design_gross_mass _ _,
    d_design_touchdown_mass_max__design_landing_to_takeoff_mass_ratio _ _⟩

end Verif.Comp.MassGaspBasedLanding.LandingMass

