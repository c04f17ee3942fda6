import Verif.Lemmas.CompDeriv

/-! # Partial derivatives of the components of `aviary/subsystems/mass/flops_based/fuel_capacity.py`

One node of a vector component is modelled over the real numbers.  Each option that selects a
branch is fixed, one namespace per choice.  `out_x` is the output `x`, `J_x__y` the entry that
`compute_partials` (or `declare_partials` with `val`) assigns, `d_x__y` the proof that the entry is
the derivative.  Inputs an output does not take as argument have no influence on it. -/

set_option linter.all false

namespace Verif.Comp.MassFlopsBasedFuelCapacity.WingFuelCapacity
open Real

/-- aviary/subsystems/mass/flops_based/fuel_capacity.py:151 -/
noncomputable def volume_of_wing (wing_area wing_span wing_taper_ratio wing_thickness_to_chord : ℝ) : ℝ :=
  ((((2 / 3) * (wing_area ^ 2)) * wing_thickness_to_chord) * (1 - (wing_taper_ratio / ((1 +
    wing_taper_ratio) ^ 2)))) / wing_span

/-- aviary/subsystems/mass/flops_based/fuel_capacity.py:158 -/
noncomputable def fuel_cap_wing (wing_area fuel_density fuel_wing_fuel_fraction wing_span wing_taper_ratio wing_thickness_to_chord : ℝ) : ℝ :=
  (fuel_density * fuel_wing_fuel_fraction) * (volume_of_wing wing_area wing_span
    wing_taper_ratio wing_thickness_to_chord)

/-- aviary/subsystems/mass/flops_based/fuel_capacity.py:171 -/
noncomputable def den (wing_taper_ratio : ℝ) : ℝ := 1 + wing_taper_ratio

/-- aviary/subsystems/mass/flops_based/fuel_capacity.py:172 -/
noncomputable def tr_fact (wing_taper_ratio : ℝ) : ℝ :=
  1 - (wing_taper_ratio / ((den wing_taper_ratio) ^ 2))

/-- aviary/subsystems/mass/flops_based/fuel_capacity.py:173 -/
noncomputable def dfact (wing_taper_ratio : ℝ) : ℝ :=
  ((-1) / ((den wing_taper_ratio) ^ 2)) + ((2 * wing_taper_ratio) / ((den wing_taper_ratio) ^
    3))

/-- Output `fuel_wing_fuel_mass_capacity` of `WingFuelCapacity.compute`, aviary/subsystems/mass/flops_based/fuel_capacity.py:160 -/
noncomputable def out_fuel_wing_fuel_mass_capacity (wing_area fuel_density fuel_wing_fuel_fraction wing_span wing_taper_ratio wing_thickness_to_chord : ℝ) : ℝ :=
  fuel_cap_wing wing_area fuel_density fuel_wing_fuel_fraction wing_span wing_taper_ratio
    wing_thickness_to_chord

/-- Partial of `fuel_wing_fuel_mass_capacity` with respect to `fuel_density` as set by `WingFuelCapacity`, aviary/subsystems/mass/flops_based/fuel_capacity.py:175 -/
noncomputable def J_fuel_wing_fuel_mass_capacity__fuel_density (wing_area fuel_wing_fuel_fraction wing_span wing_taper_ratio wing_thickness_to_chord : ℝ) : ℝ :=
  ((((fuel_wing_fuel_fraction * (2 / 3)) * (wing_area ^ 2)) * wing_thickness_to_chord) *
    (tr_fact wing_taper_ratio)) / wing_span

/-- Partial of `fuel_wing_fuel_mass_capacity` with respect to `fuel_wing_fuel_fraction` as set by `WingFuelCapacity`, aviary/subsystems/mass/flops_based/fuel_capacity.py:179 -/
noncomputable def J_fuel_wing_fuel_mass_capacity__fuel_wing_fuel_fraction (wing_area fuel_density wing_span wing_taper_ratio wing_thickness_to_chord : ℝ) : ℝ :=
  ((((fuel_density * (2 / 3)) * (wing_area ^ 2)) * wing_thickness_to_chord) * (tr_fact
    wing_taper_ratio)) / wing_span

/-- Partial of `fuel_wing_fuel_mass_capacity` with respect to `wing_span` as set by `WingFuelCapacity`, aviary/subsystems/mass/flops_based/fuel_capacity.py:183 -/
noncomputable def J_fuel_wing_fuel_mass_capacity__wing_span (wing_area fuel_density fuel_wing_fuel_fraction wing_span wing_taper_ratio wing_thickness_to_chord : ℝ) : ℝ :=
  ((((((-fuel_density) * fuel_wing_fuel_fraction) * (2 / 3)) * (wing_area ^ 2)) *
    wing_thickness_to_chord) * (tr_fact wing_taper_ratio)) / (wing_span ^ 2)

/-- Partial of `fuel_wing_fuel_mass_capacity` with respect to `wing_taper_ratio` as set by `WingFuelCapacity`, aviary/subsystems/mass/flops_based/fuel_capacity.py:193 -/
noncomputable def J_fuel_wing_fuel_mass_capacity__wing_taper_ratio (wing_area fuel_density fuel_wing_fuel_fraction wing_span wing_taper_ratio wing_thickness_to_chord : ℝ) : ℝ :=
  (((((fuel_density * fuel_wing_fuel_fraction) * (2 / 3)) * (wing_area ^ 2)) *
    wing_thickness_to_chord) * (dfact wing_taper_ratio)) / wing_span

/-- Partial of `fuel_wing_fuel_mass_capacity` with respect to `wing_thickness_to_chord` as set by `WingFuelCapacity`, aviary/subsystems/mass/flops_based/fuel_capacity.py:203 -/
noncomputable def J_fuel_wing_fuel_mass_capacity__wing_thickness_to_chord (wing_area fuel_density fuel_wing_fuel_fraction wing_span wing_taper_ratio : ℝ) : ℝ :=
  ((((fuel_density * fuel_wing_fuel_fraction) * (2 / 3)) * (wing_area ^ 2)) * (tr_fact
    wing_taper_ratio)) / wing_span

/-- Partial of `fuel_wing_fuel_mass_capacity` with respect to `wing_area` as set by `WingFuelCapacity`, aviary/subsystems/mass/flops_based/fuel_capacity.py:207 -/
noncomputable def J_fuel_wing_fuel_mass_capacity__wing_area (wing_area fuel_density fuel_wing_fuel_fraction wing_span wing_taper_ratio wing_thickness_to_chord : ℝ) : ℝ :=
  ((((((2 * fuel_density) * fuel_wing_fuel_fraction) * (2 / 3)) * wing_area) *
    wing_thickness_to_chord) * (tr_fact wing_taper_ratio)) / wing_span

theorem d_fuel_wing_fuel_mass_capacity__wing_area (wing_area fuel_density fuel_wing_fuel_fraction
    wing_span wing_taper_ratio wing_thickness_to_chord : ℝ) (h0 : 0 < wing_taper_ratio) (h1 : 0 <
    wing_span) :
    HasDerivAt (fun t => out_fuel_wing_fuel_mass_capacity t fuel_density fuel_wing_fuel_fraction wing_span wing_taper_ratio wing_thickness_to_chord) (J_fuel_wing_fuel_mass_capacity__wing_area wing_area fuel_density fuel_wing_fuel_fraction wing_span wing_taper_ratio wing_thickness_to_chord) wing_area := by
  simp only [out_fuel_wing_fuel_mass_capacity, J_fuel_wing_fuel_mass_capacity__wing_area, tr_fact, den, fuel_cap_wing, volume_of_wing]
  (apply hasDerivAt_of_eq; on_goal 1 => (repeat' comp_step))
  all_goals try comp_side
  all_goals try simp only [mul_zero, zero_mul, add_zero, zero_add, sub_zero, zero_sub, mul_one, one_mul]
  all_goals try push_cast
  all_goals comp_eq

theorem d_fuel_wing_fuel_mass_capacity__fuel_density (wing_area fuel_density
    fuel_wing_fuel_fraction wing_span wing_taper_ratio wing_thickness_to_chord : ℝ) (h0 : 0 <
    wing_taper_ratio) (h1 : 0 < wing_span) :
    HasDerivAt (fun t => out_fuel_wing_fuel_mass_capacity wing_area t fuel_wing_fuel_fraction wing_span wing_taper_ratio wing_thickness_to_chord) (J_fuel_wing_fuel_mass_capacity__fuel_density wing_area fuel_wing_fuel_fraction wing_span wing_taper_ratio wing_thickness_to_chord) fuel_density := by
  simp only [out_fuel_wing_fuel_mass_capacity, J_fuel_wing_fuel_mass_capacity__fuel_density, tr_fact, den, fuel_cap_wing, volume_of_wing]
  (apply hasDerivAt_of_eq; on_goal 1 => (repeat' comp_step))
  all_goals try comp_side
  all_goals try simp only [mul_zero, zero_mul, add_zero, zero_add, sub_zero, zero_sub, mul_one, one_mul]
  all_goals try push_cast
  all_goals comp_eq

theorem d_fuel_wing_fuel_mass_capacity__fuel_wing_fuel_fraction (wing_area fuel_density
    fuel_wing_fuel_fraction wing_span wing_taper_ratio wing_thickness_to_chord : ℝ) (h0 : 0 <
    wing_taper_ratio) (h1 : 0 < wing_span) :
    HasDerivAt (fun t => out_fuel_wing_fuel_mass_capacity wing_area fuel_density t wing_span wing_taper_ratio wing_thickness_to_chord) (J_fuel_wing_fuel_mass_capacity__fuel_wing_fuel_fraction wing_area fuel_density wing_span wing_taper_ratio wing_thickness_to_chord) fuel_wing_fuel_fraction := by
  simp only [out_fuel_wing_fuel_mass_capacity, J_fuel_wing_fuel_mass_capacity__fuel_wing_fuel_fraction, tr_fact, den, fuel_cap_wing, volume_of_wing]
  (apply hasDerivAt_of_eq; on_goal 1 => (repeat' comp_step))
  all_goals try comp_side
  all_goals try simp only [mul_zero, zero_mul, add_zero, zero_add, sub_zero, zero_sub, mul_one, one_mul]
  all_goals try push_cast
  all_goals comp_eq

theorem d_fuel_wing_fuel_mass_capacity__wing_span (wing_area fuel_density fuel_wing_fuel_fraction
    wing_span wing_taper_ratio wing_thickness_to_chord : ℝ) (h0 : 0 < wing_taper_ratio) (h1 : 0 <
    wing_span) :
    HasDerivAt (fun t => out_fuel_wing_fuel_mass_capacity wing_area fuel_density fuel_wing_fuel_fraction t wing_taper_ratio wing_thickness_to_chord) (J_fuel_wing_fuel_mass_capacity__wing_span wing_area fuel_density fuel_wing_fuel_fraction wing_span wing_taper_ratio wing_thickness_to_chord) wing_span := by
  simp only [out_fuel_wing_fuel_mass_capacity, J_fuel_wing_fuel_mass_capacity__wing_span, tr_fact, den, fuel_cap_wing, volume_of_wing]
  (apply hasDerivAt_of_eq; on_goal 1 => (repeat' comp_step))
  all_goals try comp_side
  all_goals try simp only [mul_zero, zero_mul, add_zero, zero_add, sub_zero, zero_sub, mul_one, one_mul]
  all_goals try push_cast
  all_goals comp_eq

theorem d_fuel_wing_fuel_mass_capacity__wing_taper_ratio (wing_area fuel_density
    fuel_wing_fuel_fraction wing_span wing_taper_ratio wing_thickness_to_chord : ℝ) (h0 : 0 <
    wing_taper_ratio) (h1 : 0 < wing_span) :
    HasDerivAt (fun t => out_fuel_wing_fuel_mass_capacity wing_area fuel_density fuel_wing_fuel_fraction wing_span t wing_thickness_to_chord) (J_fuel_wing_fuel_mass_capacity__wing_taper_ratio wing_area fuel_density fuel_wing_fuel_fraction wing_span wing_taper_ratio wing_thickness_to_chord) wing_taper_ratio := by
  simp only [out_fuel_wing_fuel_mass_capacity, J_fuel_wing_fuel_mass_capacity__wing_taper_ratio, dfact, den, fuel_cap_wing, volume_of_wing]
  (apply hasDerivAt_of_eq; on_goal 1 => (repeat' comp_step))
  all_goals try comp_side
  all_goals try simp only [mul_zero, zero_mul, add_zero, zero_add, sub_zero, zero_sub, mul_one, one_mul]
  all_goals try push_cast
  all_goals comp_eq

theorem d_fuel_wing_fuel_mass_capacity__wing_thickness_to_chord (wing_area fuel_density
    fuel_wing_fuel_fraction wing_span wing_taper_ratio wing_thickness_to_chord : ℝ) (h0 : 0 <
    wing_taper_ratio) (h1 : 0 < wing_span) :
    HasDerivAt (fun t => out_fuel_wing_fuel_mass_capacity wing_area fuel_density fuel_wing_fuel_fraction wing_span wing_taper_ratio t) (J_fuel_wing_fuel_mass_capacity__wing_thickness_to_chord wing_area fuel_density fuel_wing_fuel_fraction wing_span wing_taper_ratio) wing_thickness_to_chord := by
  simp only [out_fuel_wing_fuel_mass_capacity, J_fuel_wing_fuel_mass_capacity__wing_thickness_to_chord, tr_fact, den, fuel_cap_wing, volume_of_wing]
  (apply hasDerivAt_of_eq; on_goal 1 => (repeat' comp_step))
  all_goals try comp_side
  all_goals try simp only [mul_zero, zero_mul, add_zero, zero_add, sub_zero, zero_sub, mul_one, one_mul]
  all_goals try push_cast
  all_goals comp_eq

/-- Every partial derivative set by `WingFuelCapacity` is the derivative of its output. -/
theorem partials (wing_area fuel_density fuel_wing_fuel_fraction wing_span wing_taper_ratio
    wing_thickness_to_chord : ℝ) (h0 : 0 < wing_taper_ratio) (h1 : 0 < wing_span) :
    HasDerivAt (fun t => out_fuel_wing_fuel_mass_capacity t fuel_density fuel_wing_fuel_fraction
      wing_span wing_taper_ratio wing_thickness_to_chord)
      (J_fuel_wing_fuel_mass_capacity__wing_area wing_area fuel_density fuel_wing_fuel_fraction
      wing_span wing_taper_ratio wing_thickness_to_chord) wing_area ∧
    HasDerivAt (fun t => out_fuel_wing_fuel_mass_capacity wing_area t fuel_wing_fuel_fraction
      wing_span wing_taper_ratio wing_thickness_to_chord)
      (J_fuel_wing_fuel_mass_capacity__fuel_density wing_area fuel_wing_fuel_fraction wing_span
      wing_taper_ratio wing_thickness_to_chord) fuel_density ∧
    HasDerivAt (fun t => out_fuel_wing_fuel_mass_capacity wing_area fuel_density t wing_span
      wing_taper_ratio wing_thickness_to_chord)
      (J_fuel_wing_fuel_mass_capacity__fuel_wing_fuel_fraction wing_area fuel_density wing_span
      wing_taper_ratio wing_thickness_to_chord) fuel_wing_fuel_fraction ∧
    HasDerivAt (fun t => out_fuel_wing_fuel_mass_capacity wing_area fuel_density
      fuel_wing_fuel_fraction t wing_taper_ratio wing_thickness_to_chord)
      (J_fuel_wing_fuel_mass_capacity__wing_span wing_area fuel_density fuel_wing_fuel_fraction
      wing_span wing_taper_ratio wing_thickness_to_chord) wing_span ∧
    HasDerivAt (fun t => out_fuel_wing_fuel_mass_capacity wing_area fuel_density
      fuel_wing_fuel_fraction wing_span t wing_thickness_to_chord)
      (J_fuel_wing_fuel_mass_capacity__wing_taper_ratio wing_area fuel_density
      fuel_wing_fuel_fraction wing_span wing_taper_ratio wing_thickness_to_chord) wing_taper_ratio ∧
    HasDerivAt (fun t => out_fuel_wing_fuel_mass_capacity wing_area fuel_density
      fuel_wing_fuel_fraction wing_span wing_taper_ratio t)
      (J_fuel_wing_fuel_mass_capacity__wing_thickness_to_chord wing_area fuel_density
      fuel_wing_fuel_fraction wing_span wing_taper_ratio) wing_thickness_to_chord :=
  ⟨d_fuel_wing_fuel_mass_capacity__wing_area _ _ _ _ _ _ h0 h1,
    d_fuel_wing_fuel_mass_capacity__fuel_density _ _ _ _ _ _ h0 h1,
    d_fuel_wing_fuel_mass_capacity__fuel_wing_fuel_fraction _ _ _ _ _ _ h0 h1,
    d_fuel_wing_fuel_mass_capacity__wing_span _ _ _ _ _ _ h0 h1,
    d_fuel_wing_fuel_mass_capacity__wing_taper_ratio _ _ _ _ _ _ h0 h1,
    d_fuel_wing_fuel_mass_capacity__wing_thickness_to_chord _ _ _ _ _ _ h0 h1⟩

example : ∃ wing_area fuel_density fuel_wing_fuel_fraction wing_span wing_taper_ratio
      wing_thickness_to_chord : ℝ,
      0 < wing_taper_ratio ∧
      0 < wing_span :=
  ⟨0, 0, 0, 1, 1, 0, by comp_example, by comp_example⟩

end Verif.Comp.MassFlopsBasedFuelCapacity.WingFuelCapacity

