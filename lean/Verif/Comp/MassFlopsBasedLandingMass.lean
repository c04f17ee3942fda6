import Verif.Lemmas.CompDeriv

/-! # Partial derivatives of the components of `aviary/subsystems/mass/flops_based/landing_mass.py`

One node of a vector component is modelled over the real numbers.  Each option that selects a
branch is fixed, one namespace per choice.  `out_x` is the output `x`, `J_x__y` the entry that
`compute_partials` (or `declare_partials` with `val`) assigns, `d_x__y` the proof that the entry is
the derivative.  Inputs an output does not take as argument have no influence on it. -/

set_option linter.all false

namespace Verif.Comp.MassFlopsBasedLandingMass.LandingMass
open Real

/-- Output `design_touchdown_mass_max` of `LandingMass.compute`, aviary/subsystems/mass/flops_based/landing_mass.py:61 -/
noncomputable def out_design_touchdown_mass_max (design_gross_mass design_landing_to_takeoff_mass_ratio : ℝ) : ℝ :=
  design_gross_mass * design_landing_to_takeoff_mass_ratio

/-- Partial of `design_touchdown_mass_max` with respect to `design_gross_mass` as set by `LandingMass`, aviary/subsystems/mass/flops_based/landing_mass.py:67 -/
noncomputable def J_design_touchdown_mass_max__design_gross_mass (design_landing_to_takeoff_mass_ratio : ℝ) : ℝ :=
  design_landing_to_takeoff_mass_ratio

/-- Partial of `design_touchdown_mass_max` with respect to `design_landing_to_takeoff_mass_ratio` as set by `LandingMass`, aviary/subsystems/mass/flops_based/landing_mass.py:71 -/
noncomputable def J_design_touchdown_mass_max__design_landing_to_takeoff_mass_ratio (design_gross_mass : ℝ) : ℝ :=
  design_gross_mass

theorem d_design_touchdown_mass_max__design_gross_mass (design_gross_mass
    design_landing_to_takeoff_mass_ratio : ℝ)  :
    HasDerivAt (fun t => out_design_touchdown_mass_max t design_landing_to_takeoff_mass_ratio) (J_design_touchdown_mass_max__design_gross_mass design_landing_to_takeoff_mass_ratio) design_gross_mass := by
  simp only [out_design_touchdown_mass_max, J_design_touchdown_mass_max__design_gross_mass]
  (apply hasDerivAt_of_eq; on_goal 1 => (repeat' comp_step))
  all_goals try comp_side
  all_goals try simp only [mul_zero, zero_mul, add_zero, zero_add, sub_zero, zero_sub, mul_one, one_mul]
  all_goals try push_cast
  all_goals comp_eq

theorem d_design_touchdown_mass_max__design_landing_to_takeoff_mass_ratio (design_gross_mass
    design_landing_to_takeoff_mass_ratio : ℝ)  :
    HasDerivAt (fun t => out_design_touchdown_mass_max design_gross_mass t) (J_design_touchdown_mass_max__design_landing_to_takeoff_mass_ratio design_gross_mass) design_landing_to_takeoff_mass_ratio := by
  simp only [out_design_touchdown_mass_max, J_design_touchdown_mass_max__design_landing_to_takeoff_mass_ratio]
  (apply hasDerivAt_of_eq; on_goal 1 => (repeat' comp_step))
  all_goals try comp_side
  all_goals try simp only [mul_zero, zero_mul, add_zero, zero_add, sub_zero, zero_sub, mul_one, one_mul]
  all_goals try push_cast
  all_goals comp_eq

/-- Every partial derivative set by `LandingMass` is the derivative of its output. -/
theorem partials (design_gross_mass design_landing_to_takeoff_mass_ratio : ℝ) :
    HasDerivAt (fun t => out_design_touchdown_mass_max t design_landing_to_takeoff_mass_ratio)
      (J_design_touchdown_mass_max__design_gross_mass design_landing_to_takeoff_mass_ratio)
      design_gross_mass ∧
    HasDerivAt (fun t => out_design_touchdown_mass_max design_gross_mass t)
      (J_design_touchdown_mass_max__design_landing_to_takeoff_mass_ratio design_gross_mass)
      design_landing_to_takeoff_mass_ratio :=
  ⟨d_design_touchdown_mass_max__design_gross_mass _ _,
    d_design_touchdown_mass_max__design_landing_to_takeoff_mass_ratio _ _⟩

end Verif.Comp.MassFlopsBasedLandingMass.LandingMass

namespace Verif.Comp.MassFlopsBasedLandingMass.LandingTakeoffMassRatio
open Real

/-- aviary/subsystems/mass/flops_based/landing_mass.py:27 -/
noncomputable def cruise_factor (design_cruise_mach : ℝ) : ℝ :=
  ((1 / 20000) / (1 + (exp ((-1000) * (design_cruise_mach - 1))))) + (1 / 25000)

/-- aviary/subsystems/mass/flops_based/landing_mass.py:35 -/
noncomputable def den (design_cruise_mach : ℝ) : ℝ := 1 + (exp ((-1000) * (design_cruise_mach - 1)))

/-- aviary/subsystems/mass/flops_based/landing_mass.py:36 -/
noncomputable def cruise_factor_2 (design_cruise_mach : ℝ) : ℝ :=
  ((1 / 20000) / (den design_cruise_mach)) + (1 / 25000)

/-- aviary/subsystems/mass/flops_based/landing_mass.py:37 -/
noncomputable def dfact_dmach (design_cruise_mach : ℝ) : ℝ :=
  ((1 / 20) / ((den design_cruise_mach) ^ 2)) * (exp ((-1000) * (design_cruise_mach - 1)))

/-- Output `design_landing_to_takeoff_mass_ratio` of `LandingTakeoffMassRatio.compute`, aviary/subsystems/mass/flops_based/landing_mass.py:29 -/
noncomputable def out_design_landing_to_takeoff_mass_ratio (design_cruise_mach design_range : ℝ) : ℝ :=
  1 - ((cruise_factor design_cruise_mach) * design_range)

/-- Partial of `design_landing_to_takeoff_mass_ratio` with respect to `design_range` as set by `LandingTakeoffMassRatio`, aviary/subsystems/mass/flops_based/landing_mass.py:39 -/
noncomputable def J_design_landing_to_takeoff_mass_ratio__design_range (design_cruise_mach : ℝ) : ℝ :=
  -(cruise_factor_2 design_cruise_mach)

/-- Partial of `design_landing_to_takeoff_mass_ratio` with respect to `design_cruise_mach` as set by `LandingTakeoffMassRatio`, aviary/subsystems/mass/flops_based/landing_mass.py:40 -/
noncomputable def J_design_landing_to_takeoff_mass_ratio__design_cruise_mach (design_cruise_mach design_range : ℝ) : ℝ :=
  (-design_range) * (dfact_dmach design_cruise_mach)

theorem d_design_landing_to_takeoff_mass_ratio__design_cruise_mach (design_cruise_mach
    design_range : ℝ)  :
    HasDerivAt (fun t => out_design_landing_to_takeoff_mass_ratio t design_range) (J_design_landing_to_takeoff_mass_ratio__design_cruise_mach design_cruise_mach design_range) design_cruise_mach := by
  simp only [out_design_landing_to_takeoff_mass_ratio, J_design_landing_to_takeoff_mass_ratio__design_cruise_mach, dfact_dmach, den, cruise_factor]
  (apply hasDerivAt_of_eq; on_goal 1 => (repeat' comp_step))
  all_goals try comp_side
  all_goals try simp only [mul_zero, zero_mul, add_zero, zero_add, sub_zero, zero_sub, mul_one, one_mul]
  all_goals try push_cast
  all_goals comp_eq

theorem d_design_landing_to_takeoff_mass_ratio__design_range (design_cruise_mach design_range : ℝ)
    :
    HasDerivAt (fun t => out_design_landing_to_takeoff_mass_ratio design_cruise_mach t) (J_design_landing_to_takeoff_mass_ratio__design_range design_cruise_mach) design_range := by
  simp only [out_design_landing_to_takeoff_mass_ratio, J_design_landing_to_takeoff_mass_ratio__design_range, cruise_factor_2, den, cruise_factor]
  (apply hasDerivAt_of_eq; on_goal 1 => (repeat' comp_step))
  all_goals try comp_side
  all_goals try simp only [mul_zero, zero_mul, add_zero, zero_add, sub_zero, zero_sub, mul_one, one_mul]
  all_goals try push_cast
  all_goals comp_eq

/-- Every partial derivative set by `LandingTakeoffMassRatio` is the derivative of its output. -/
theorem partials (design_cruise_mach design_range : ℝ) :
    HasDerivAt (fun t => out_design_landing_to_takeoff_mass_ratio t design_range)
      (J_design_landing_to_takeoff_mass_ratio__design_cruise_mach design_cruise_mach design_range)
      design_cruise_mach ∧
    HasDerivAt (fun t => out_design_landing_to_takeoff_mass_ratio design_cruise_mach t)
      (J_design_landing_to_takeoff_mass_ratio__design_range design_cruise_mach) design_range :=
  ⟨d_design_landing_to_takeoff_mass_ratio__design_cruise_mach _ _,
    d_design_landing_to_takeoff_mass_ratio__design_range _ _⟩

end Verif.Comp.MassFlopsBasedLandingMass.LandingTakeoffMassRatio

