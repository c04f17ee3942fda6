import Verif.Lemmas.CompDeriv

/-! # Partial derivatives of the components of `aviary/subsystems/mass/gasp_based/air_conditioning.py`

One node of a vector component is modelled over the real numbers.  Each option that selects a
branch is fixed, one namespace per choice.  `out_x` is the output `x`, `J_x__y` the entry that
`compute_partials` (or `declare_partials` with `val`) assigns, `d_x__y` the proof that the entry is
the derivative.  Inputs an output does not take as argument have no influence on it. -/

set_option linter.all false

namespace Verif.Comp.MassGaspBasedAirConditioning.ACMass_smooth
open Real

/-- aviary/subsystems/mass/gasp_based/air_conditioning.py:11 -/
noncomputable def smoother (mu x0 design_gross_mass : ℝ) : ℝ := sigX design_gross_mass x0 mu

/-- aviary/subsystems/mass/gasp_based/air_conditioning.py:13 -/
noncomputable def air_cond1_wt (fuselage_length fuselage_pressure_differential fuselage_avg_diameter airconditioning_mass_coefficient : ℝ) : ℝ :=
  (airconditioning_mass_coefficient * ((3 / 2) + fuselage_pressure_differential)) * ((((179 /
    500) * fuselage_length) * (fuselage_avg_diameter ^ 2)) ^ ((1 / 2) : ℝ))

/-- aviary/subsystems/mass/gasp_based/air_conditioning.py:16 -/
noncomputable def air_conditioning_wt (mu x0 design_gross_mass fuselage_length fuselage_pressure_differential fuselage_avg_diameter airconditioning_mass_coefficient : ℝ) : ℝ :=
  ((smoother mu x0 design_gross_mass) * (air_cond1_wt fuselage_length
    fuselage_pressure_differential fuselage_avg_diameter airconditioning_mass_coefficient)) +
    ((1 - (smoother mu x0 design_gross_mass)) * 5)

/-- aviary/subsystems/mass/gasp_based/air_conditioning.py:35 -/
noncomputable def dac_wt_dgross_wt (mu x0 design_gross_mass fuselage_length fuselage_pressure_differential fuselage_avg_diameter airconditioning_mass_coefficient : ℝ) : ℝ :=
  ((dsigX design_gross_mass x0 mu) * (air_cond1_wt fuselage_length
    fuselage_pressure_differential fuselage_avg_diameter airconditioning_mass_coefficient)) -
    ((dsigX design_gross_mass x0 mu) * 5)

/-- aviary/subsystems/mass/gasp_based/air_conditioning.py:43 -/
noncomputable def dac_wt_dfus_1_len (fuselage_length fuselage_pressure_differential fuselage_avg_diameter airconditioning_mass_coefficient : ℝ) : ℝ :=
  (((((1 / 2) * airconditioning_mass_coefficient) * ((3 / 2) + fuselage_pressure_differential))
    * (179 / 500)) * (fuselage_avg_diameter ^ 2)) * ((((179 / 500) * fuselage_length) *
    (fuselage_avg_diameter ^ 2)) ^ ((-(1 / 2)) : ℝ))

/-- aviary/subsystems/mass/gasp_based/air_conditioning.py:51 -/
noncomputable def dac_wt_dp_diff_1_fus (fuselage_length fuselage_avg_diameter airconditioning_mass_coefficient : ℝ) : ℝ :=
  airconditioning_mass_coefficient * ((((179 / 500) * fuselage_length) * (fuselage_avg_diameter
    ^ 2)) ^ ((1 / 2) : ℝ))

/-- aviary/subsystems/mass/gasp_based/air_conditioning.py:52 -/
noncomputable def dac_wt_dcabin_1_width (fuselage_length fuselage_pressure_differential fuselage_avg_diameter airconditioning_mass_coefficient : ℝ) : ℝ :=
  ((((airconditioning_mass_coefficient * ((3 / 2) + fuselage_pressure_differential)) * (179 /
    500)) * fuselage_length) * fuselage_avg_diameter) * ((((179 / 500) * fuselage_length) *
    (fuselage_avg_diameter ^ 2)) ^ ((-(1 / 2)) : ℝ))

/-- aviary/subsystems/mass/gasp_based/air_conditioning.py:60 -/
noncomputable def dac_wt_dac_1_coeff (fuselage_length fuselage_pressure_differential fuselage_avg_diameter : ℝ) : ℝ :=
  ((3 / 2) + fuselage_pressure_differential) * ((((179 / 500) * fuselage_length) *
    (fuselage_avg_diameter ^ 2)) ^ ((1 / 2) : ℝ))

/-- aviary/subsystems/mass/gasp_based/air_conditioning.py:69 -/
noncomputable def dac_wt_dfus_len (mu x0 design_gross_mass fuselage_length fuselage_pressure_differential fuselage_avg_diameter airconditioning_mass_coefficient : ℝ) : ℝ :=
  ((sigX design_gross_mass x0 mu) * (dac_wt_dfus_1_len fuselage_length
    fuselage_pressure_differential fuselage_avg_diameter airconditioning_mass_coefficient)) +
    ((1 - (sigX design_gross_mass x0 mu)) * 0)

/-- aviary/subsystems/mass/gasp_based/air_conditioning.py:80 -/
noncomputable def dac_wt_dp_diff_fus (mu x0 design_gross_mass fuselage_length fuselage_avg_diameter airconditioning_mass_coefficient : ℝ) : ℝ :=
  ((sigX design_gross_mass x0 mu) * (dac_wt_dp_diff_1_fus fuselage_length fuselage_avg_diameter
    airconditioning_mass_coefficient)) + ((1 - (sigX design_gross_mass x0 mu)) * 0)

/-- aviary/subsystems/mass/gasp_based/air_conditioning.py:91 -/
noncomputable def dac_wt_dcabin_width (mu x0 design_gross_mass fuselage_length fuselage_pressure_differential fuselage_avg_diameter airconditioning_mass_coefficient : ℝ) : ℝ :=
  ((sigX design_gross_mass x0 mu) * (dac_wt_dcabin_1_width fuselage_length
    fuselage_pressure_differential fuselage_avg_diameter airconditioning_mass_coefficient)) +
    ((1 - (sigX design_gross_mass x0 mu)) * 0)

/-- aviary/subsystems/mass/gasp_based/air_conditioning.py:102 -/
noncomputable def dac_wt_dac_coeff (mu x0 design_gross_mass fuselage_length fuselage_pressure_differential fuselage_avg_diameter : ℝ) : ℝ :=
  ((sigX design_gross_mass x0 mu) * (dac_wt_dac_1_coeff fuselage_length
    fuselage_pressure_differential fuselage_avg_diameter)) + ((1 - (sigX design_gross_mass x0
    mu)) * 0)

/-- Output `airconditioning_mass` of `ACMass.compute`, aviary/subsystems/mass/gasp_based/air_conditioning.py:162 -/
noncomputable def out_airconditioning_mass (mu x0 design_gross_mass fuselage_length fuselage_pressure_differential fuselage_avg_diameter airconditioning_mass_coefficient : ℝ) : ℝ :=
  air_conditioning_wt mu x0 design_gross_mass fuselage_length fuselage_pressure_differential
    fuselage_avg_diameter airconditioning_mass_coefficient

/-- Partial of `airconditioning_mass` with respect to `design_gross_mass` as set by `ACMass`, aviary/subsystems/mass/gasp_based/air_conditioning.py:183 -/
noncomputable def J_airconditioning_mass__design_gross_mass (mu x0 design_gross_mass fuselage_length fuselage_pressure_differential fuselage_avg_diameter airconditioning_mass_coefficient : ℝ) : ℝ :=
  dac_wt_dgross_wt mu x0 design_gross_mass fuselage_length fuselage_pressure_differential
    fuselage_avg_diameter airconditioning_mass_coefficient

/-- Partial of `airconditioning_mass` with respect to `fuselage_length` as set by `ACMass`, aviary/subsystems/mass/gasp_based/air_conditioning.py:184 -/
noncomputable def J_airconditioning_mass__fuselage_length (mu x0 design_gross_mass fuselage_length fuselage_pressure_differential fuselage_avg_diameter airconditioning_mass_coefficient : ℝ) : ℝ :=
  dac_wt_dfus_len mu x0 design_gross_mass fuselage_length fuselage_pressure_differential
    fuselage_avg_diameter airconditioning_mass_coefficient

/-- Partial of `airconditioning_mass` with respect to `fuselage_pressure_differential` as set by `ACMass`, aviary/subsystems/mass/gasp_based/air_conditioning.py:187 -/
noncomputable def J_airconditioning_mass__fuselage_pressure_differential (mu x0 design_gross_mass fuselage_length fuselage_avg_diameter airconditioning_mass_coefficient : ℝ) : ℝ :=
  dac_wt_dp_diff_fus mu x0 design_gross_mass fuselage_length fuselage_avg_diameter
    airconditioning_mass_coefficient

/-- Partial of `airconditioning_mass` with respect to `fuselage_avg_diameter` as set by `ACMass`, aviary/subsystems/mass/gasp_based/air_conditioning.py:190 -/
noncomputable def J_airconditioning_mass__fuselage_avg_diameter (mu x0 design_gross_mass fuselage_length fuselage_pressure_differential fuselage_avg_diameter airconditioning_mass_coefficient : ℝ) : ℝ :=
  dac_wt_dcabin_width mu x0 design_gross_mass fuselage_length fuselage_pressure_differential
    fuselage_avg_diameter airconditioning_mass_coefficient

/-- Partial of `airconditioning_mass` with respect to `airconditioning_mass_coefficient` as set by `ACMass`, aviary/subsystems/mass/gasp_based/air_conditioning.py:193 -/
noncomputable def J_airconditioning_mass__airconditioning_mass_coefficient (mu x0 design_gross_mass fuselage_length fuselage_pressure_differential fuselage_avg_diameter : ℝ) : ℝ :=
  dac_wt_dac_coeff mu x0 design_gross_mass fuselage_length fuselage_pressure_differential
    fuselage_avg_diameter

theorem d_airconditioning_mass__design_gross_mass (mu x0 design_gross_mass fuselage_length
    fuselage_pressure_differential fuselage_avg_diameter airconditioning_mass_coefficient : ℝ) (h0
    : 0 < mu) (h1 : (design_gross_mass - x0) / mu ≠ -320) (h2 : 0 < fuselage_length) (h3 : 0 <
    fuselage_avg_diameter) :
    HasDerivAt (fun t => out_airconditioning_mass mu x0 t fuselage_length fuselage_pressure_differential fuselage_avg_diameter airconditioning_mass_coefficient) (J_airconditioning_mass__design_gross_mass mu x0 design_gross_mass fuselage_length fuselage_pressure_differential fuselage_avg_diameter airconditioning_mass_coefficient) design_gross_mass := by
  simp only [out_airconditioning_mass, J_airconditioning_mass__design_gross_mass, dac_wt_dgross_wt, air_conditioning_wt, air_cond1_wt, smoother]
  (apply hasDerivAt_of_eq; on_goal 1 => (repeat' comp_step))
  all_goals try comp_side
  all_goals try simp (disch := first | assumption | positivity) only [div_mul_eq_div_div, div_half, inv_half]
  all_goals try simp only [mul_zero, zero_mul, add_zero, zero_add, sub_zero, zero_sub, mul_one, one_mul]
  all_goals try push_cast
  all_goals comp_eq

theorem d_airconditioning_mass__fuselage_length (mu x0 design_gross_mass fuselage_length
    fuselage_pressure_differential fuselage_avg_diameter airconditioning_mass_coefficient : ℝ) (h0
    : 0 < mu) (h1 : 0 < fuselage_length) (h2 : 0 < fuselage_avg_diameter) :
    HasDerivAt (fun t => out_airconditioning_mass mu x0 design_gross_mass t fuselage_pressure_differential fuselage_avg_diameter airconditioning_mass_coefficient) (J_airconditioning_mass__fuselage_length mu x0 design_gross_mass fuselage_length fuselage_pressure_differential fuselage_avg_diameter airconditioning_mass_coefficient) fuselage_length := by
  have e0 : ∀ x : ℝ, 0 < x → x ^ ((-(1 / 2)) : ℝ) = x ^ ((1 / 2) : ℝ) / x ^ 1 := fun x hx => rpow_down hx 1 (by norm_num)
  simp only [out_airconditioning_mass, J_airconditioning_mass__fuselage_length, dac_wt_dfus_len, dac_wt_dfus_1_len, air_conditioning_wt, air_cond1_wt, smoother]
  (apply hasDerivAt_of_eq; on_goal 1 => (repeat' comp_step))
  all_goals try comp_side
  all_goals try simp (disch := first | assumption | positivity) only [e0, div_mul_eq_div_div, div_half, inv_half]
  all_goals try simp only [mul_zero, zero_mul, add_zero, zero_add, sub_zero, zero_sub, mul_one, one_mul]
  all_goals try push_cast
  all_goals comp_eq

theorem d_airconditioning_mass__fuselage_pressure_differential (mu x0 design_gross_mass
    fuselage_length fuselage_pressure_differential fuselage_avg_diameter
    airconditioning_mass_coefficient : ℝ) (h0 : 0 < mu) (h1 : 0 < fuselage_length) (h2 : 0 <
    fuselage_avg_diameter) :
    HasDerivAt (fun t => out_airconditioning_mass mu x0 design_gross_mass fuselage_length t fuselage_avg_diameter airconditioning_mass_coefficient) (J_airconditioning_mass__fuselage_pressure_differential mu x0 design_gross_mass fuselage_length fuselage_avg_diameter airconditioning_mass_coefficient) fuselage_pressure_differential := by
  simp only [out_airconditioning_mass, J_airconditioning_mass__fuselage_pressure_differential, dac_wt_dp_diff_fus, dac_wt_dp_diff_1_fus, air_conditioning_wt, air_cond1_wt, smoother]
  (apply hasDerivAt_of_eq; on_goal 1 => (repeat' comp_step))
  all_goals try comp_side
  all_goals try simp (disch := first | assumption | positivity) only [div_mul_eq_div_div, div_half, inv_half]
  all_goals try simp only [mul_zero, zero_mul, add_zero, zero_add, sub_zero, zero_sub, mul_one, one_mul]
  all_goals try push_cast
  all_goals comp_eq

theorem d_airconditioning_mass__fuselage_avg_diameter (mu x0 design_gross_mass fuselage_length
    fuselage_pressure_differential fuselage_avg_diameter airconditioning_mass_coefficient : ℝ) (h0
    : 0 < mu) (h1 : 0 < fuselage_length) (h2 : 0 < fuselage_avg_diameter) :
    HasDerivAt (fun t => out_airconditioning_mass mu x0 design_gross_mass fuselage_length fuselage_pressure_differential t airconditioning_mass_coefficient) (J_airconditioning_mass__fuselage_avg_diameter mu x0 design_gross_mass fuselage_length fuselage_pressure_differential fuselage_avg_diameter airconditioning_mass_coefficient) fuselage_avg_diameter := by
  have e0 : ∀ x : ℝ, 0 < x → x ^ ((-(1 / 2)) : ℝ) = x ^ ((1 / 2) : ℝ) / x ^ 1 := fun x hx => rpow_down hx 1 (by norm_num)
  simp only [out_airconditioning_mass, J_airconditioning_mass__fuselage_avg_diameter, dac_wt_dcabin_width, dac_wt_dcabin_1_width, air_conditioning_wt, air_cond1_wt, smoother]
  (apply hasDerivAt_of_eq; on_goal 1 => (repeat' comp_step))
  all_goals try comp_side
  all_goals try simp (disch := first | assumption | positivity) only [e0, div_mul_eq_div_div, div_half, inv_half]
  all_goals try simp only [mul_zero, zero_mul, add_zero, zero_add, sub_zero, zero_sub, mul_one, one_mul]
  all_goals try push_cast
  all_goals comp_eq

theorem d_airconditioning_mass__airconditioning_mass_coefficient (mu x0 design_gross_mass
    fuselage_length fuselage_pressure_differential fuselage_avg_diameter
    airconditioning_mass_coefficient : ℝ) (h0 : 0 < mu) (h1 : 0 < fuselage_length) (h2 : 0 <
    fuselage_avg_diameter) :
    HasDerivAt (fun t => out_airconditioning_mass mu x0 design_gross_mass fuselage_length fuselage_pressure_differential fuselage_avg_diameter t) (J_airconditioning_mass__airconditioning_mass_coefficient mu x0 design_gross_mass fuselage_length fuselage_pressure_differential fuselage_avg_diameter) airconditioning_mass_coefficient := by
  simp only [out_airconditioning_mass, J_airconditioning_mass__airconditioning_mass_coefficient, dac_wt_dac_coeff, dac_wt_dac_1_coeff, air_conditioning_wt, air_cond1_wt, smoother]
  (apply hasDerivAt_of_eq; on_goal 1 => (repeat' comp_step))
  all_goals try comp_side
  all_goals try simp (disch := first | assumption | positivity) only [div_mul_eq_div_div, div_half, inv_half]
  all_goals try simp only [mul_zero, zero_mul, add_zero, zero_add, sub_zero, zero_sub, mul_one, one_mul]
  all_goals try push_cast
  all_goals comp_eq

/-- Every partial derivative set by `ACMass` is the derivative of its output. -/
theorem partials (mu x0 design_gross_mass fuselage_length fuselage_pressure_differential
    fuselage_avg_diameter airconditioning_mass_coefficient : ℝ) (h0 : 0 < mu) (h1 :
    (design_gross_mass - x0) / mu ≠ -320) (h2 : 0 < fuselage_length) (h3 : 0 <
    fuselage_avg_diameter) :
    HasDerivAt (fun t => out_airconditioning_mass mu x0 t fuselage_length
      fuselage_pressure_differential fuselage_avg_diameter airconditioning_mass_coefficient)
      (J_airconditioning_mass__design_gross_mass mu x0 design_gross_mass fuselage_length
      fuselage_pressure_differential fuselage_avg_diameter airconditioning_mass_coefficient)
      design_gross_mass ∧
    HasDerivAt (fun t => out_airconditioning_mass mu x0 design_gross_mass t
      fuselage_pressure_differential fuselage_avg_diameter airconditioning_mass_coefficient)
      (J_airconditioning_mass__fuselage_length mu x0 design_gross_mass fuselage_length
      fuselage_pressure_differential fuselage_avg_diameter airconditioning_mass_coefficient)
      fuselage_length ∧
    HasDerivAt (fun t => out_airconditioning_mass mu x0 design_gross_mass fuselage_length t
      fuselage_avg_diameter airconditioning_mass_coefficient)
      (J_airconditioning_mass__fuselage_pressure_differential mu x0 design_gross_mass
      fuselage_length fuselage_avg_diameter airconditioning_mass_coefficient)
      fuselage_pressure_differential ∧
    HasDerivAt (fun t => out_airconditioning_mass mu x0 design_gross_mass fuselage_length
      fuselage_pressure_differential t airconditioning_mass_coefficient)
      (J_airconditioning_mass__fuselage_avg_diameter mu x0 design_gross_mass fuselage_length
      fuselage_pressure_differential fuselage_avg_diameter airconditioning_mass_coefficient)
      fuselage_avg_diameter ∧
    HasDerivAt (fun t => out_airconditioning_mass mu x0 design_gross_mass fuselage_length
      fuselage_pressure_differential fuselage_avg_diameter t)
      (J_airconditioning_mass__airconditioning_mass_coefficient mu x0 design_gross_mass
      fuselage_length fuselage_pressure_differential fuselage_avg_diameter)
      airconditioning_mass_coefficient :=
  ⟨d_airconditioning_mass__design_gross_mass _ _ _ _ _ _ _ h0 h1 h2 h3,
    d_airconditioning_mass__fuselage_length _ _ _ _ _ _ _ h0 h2 h3,
    d_airconditioning_mass__fuselage_pressure_differential _ _ _ _ _ _ _ h0 h2 h3,
    d_airconditioning_mass__fuselage_avg_diameter _ _ _ _ _ _ _ h0 h2 h3,
    d_airconditioning_mass__airconditioning_mass_coefficient _ _ _ _ _ _ _ h0 h2 h3⟩

example : ∃ mu x0 design_gross_mass fuselage_length fuselage_pressure_differential
      fuselage_avg_diameter airconditioning_mass_coefficient : ℝ,
      0 < mu ∧
      (design_gross_mass - x0) / mu ≠ -320 ∧
      0 < fuselage_length ∧
      0 < fuselage_avg_diameter :=
  ⟨1, 0, 0, 1, 0, 1, 0, by comp_example, by comp_example, by comp_example, by comp_example⟩

end Verif.Comp.MassGaspBasedAirConditioning.ACMass_smooth

namespace Verif.Comp.MassGaspBasedAirConditioning.ACMass_no_smooth
open Real

/-- aviary/subsystems/mass/gasp_based/air_conditioning.py:19 -/
noncomputable abbrev air_conditioning_wt (fuselage_length fuselage_pressure_differential fuselage_avg_diameter airconditioning_mass_coefficient : ℝ) : ℝ :=
  (airconditioning_mass_coefficient * ((3 / 2) + fuselage_pressure_differential)) * ((((179 /
    500) * fuselage_length) * (fuselage_avg_diameter ^ 2)) ^ ((1 / 2) : ℝ))

/-- aviary/subsystems/mass/gasp_based/air_conditioning.py:18 -/
noncomputable abbrev air_conditioning_wt_2 (design_gross_mass fuselage_length fuselage_pressure_differential fuselage_avg_diameter airconditioning_mass_coefficient : ℝ) : ℝ :=
  if 3500 < design_gross_mass then (air_conditioning_wt fuselage_length
    fuselage_pressure_differential fuselage_avg_diameter airconditioning_mass_coefficient) else
    5

/-- aviary/subsystems/mass/gasp_based/air_conditioning.py:43 -/
noncomputable abbrev dac_wt_dfus_1_len (fuselage_length fuselage_pressure_differential fuselage_avg_diameter airconditioning_mass_coefficient : ℝ) : ℝ :=
  (((((1 / 2) * airconditioning_mass_coefficient) * ((3 / 2) + fuselage_pressure_differential))
    * (179 / 500)) * (fuselage_avg_diameter ^ 2)) * ((((179 / 500) * fuselage_length) *
    (fuselage_avg_diameter ^ 2)) ^ ((-(1 / 2)) : ℝ))

/-- aviary/subsystems/mass/gasp_based/air_conditioning.py:51 -/
noncomputable abbrev dac_wt_dp_diff_1_fus (fuselage_length fuselage_avg_diameter airconditioning_mass_coefficient : ℝ) : ℝ :=
  airconditioning_mass_coefficient * ((((179 / 500) * fuselage_length) * (fuselage_avg_diameter
    ^ 2)) ^ ((1 / 2) : ℝ))

/-- aviary/subsystems/mass/gasp_based/air_conditioning.py:52 -/
noncomputable abbrev dac_wt_dcabin_1_width (fuselage_length fuselage_pressure_differential fuselage_avg_diameter airconditioning_mass_coefficient : ℝ) : ℝ :=
  ((((airconditioning_mass_coefficient * ((3 / 2) + fuselage_pressure_differential)) * (179 /
    500)) * fuselage_length) * fuselage_avg_diameter) * ((((179 / 500) * fuselage_length) *
    (fuselage_avg_diameter ^ 2)) ^ ((-(1 / 2)) : ℝ))

/-- aviary/subsystems/mass/gasp_based/air_conditioning.py:60 -/
noncomputable abbrev dac_wt_dac_1_coeff (fuselage_length fuselage_pressure_differential fuselage_avg_diameter : ℝ) : ℝ :=
  ((3 / 2) + fuselage_pressure_differential) * ((((179 / 500) * fuselage_length) *
    (fuselage_avg_diameter ^ 2)) ^ ((1 / 2) : ℝ))

/-- aviary/subsystems/mass/gasp_based/air_conditioning.py:74 -/
noncomputable abbrev dac_wt_dfus_len (design_gross_mass fuselage_length fuselage_pressure_differential fuselage_avg_diameter airconditioning_mass_coefficient : ℝ) : ℝ :=
  if 3500 < design_gross_mass then (dac_wt_dfus_1_len fuselage_length
    fuselage_pressure_differential fuselage_avg_diameter airconditioning_mass_coefficient) else
    0

/-- aviary/subsystems/mass/gasp_based/air_conditioning.py:85 -/
noncomputable abbrev dac_wt_dp_diff_fus (design_gross_mass fuselage_length fuselage_avg_diameter airconditioning_mass_coefficient : ℝ) : ℝ :=
  if 3500 < design_gross_mass then (dac_wt_dp_diff_1_fus fuselage_length fuselage_avg_diameter
    airconditioning_mass_coefficient) else 0

/-- aviary/subsystems/mass/gasp_based/air_conditioning.py:96 -/
noncomputable abbrev dac_wt_dcabin_width (design_gross_mass fuselage_length fuselage_pressure_differential fuselage_avg_diameter airconditioning_mass_coefficient : ℝ) : ℝ :=
  if 3500 < design_gross_mass then (dac_wt_dcabin_1_width fuselage_length
    fuselage_pressure_differential fuselage_avg_diameter airconditioning_mass_coefficient) else
    0

/-- aviary/subsystems/mass/gasp_based/air_conditioning.py:107 -/
noncomputable abbrev dac_wt_dac_coeff (design_gross_mass fuselage_length fuselage_pressure_differential fuselage_avg_diameter : ℝ) : ℝ :=
  if 3500 < design_gross_mass then (dac_wt_dac_1_coeff fuselage_length
    fuselage_pressure_differential fuselage_avg_diameter) else 0

/-- Output `airconditioning_mass` of `ACMass.compute`, aviary/subsystems/mass/gasp_based/air_conditioning.py:162 -/
noncomputable def out_airconditioning_mass (design_gross_mass fuselage_length fuselage_pressure_differential fuselage_avg_diameter airconditioning_mass_coefficient : ℝ) : ℝ :=
  air_conditioning_wt_2 design_gross_mass fuselage_length fuselage_pressure_differential
    fuselage_avg_diameter airconditioning_mass_coefficient

/-- Partial of `airconditioning_mass` with respect to `design_gross_mass` as set by `ACMass`, aviary/subsystems/mass/gasp_based/air_conditioning.py:183 -/
noncomputable def J_airconditioning_mass__design_gross_mass : ℝ := 0

/-- Partial of `airconditioning_mass` with respect to `fuselage_length` as set by `ACMass`, aviary/subsystems/mass/gasp_based/air_conditioning.py:184 -/
noncomputable def J_airconditioning_mass__fuselage_length (design_gross_mass fuselage_length fuselage_pressure_differential fuselage_avg_diameter airconditioning_mass_coefficient : ℝ) : ℝ :=
  dac_wt_dfus_len design_gross_mass fuselage_length fuselage_pressure_differential
    fuselage_avg_diameter airconditioning_mass_coefficient

/-- Partial of `airconditioning_mass` with respect to `fuselage_pressure_differential` as set by `ACMass`, aviary/subsystems/mass/gasp_based/air_conditioning.py:187 -/
noncomputable def J_airconditioning_mass__fuselage_pressure_differential (design_gross_mass fuselage_length fuselage_avg_diameter airconditioning_mass_coefficient : ℝ) : ℝ :=
  dac_wt_dp_diff_fus design_gross_mass fuselage_length fuselage_avg_diameter
    airconditioning_mass_coefficient

/-- Partial of `airconditioning_mass` with respect to `fuselage_avg_diameter` as set by `ACMass`, aviary/subsystems/mass/gasp_based/air_conditioning.py:190 -/
noncomputable def J_airconditioning_mass__fuselage_avg_diameter (design_gross_mass fuselage_length fuselage_pressure_differential fuselage_avg_diameter airconditioning_mass_coefficient : ℝ) : ℝ :=
  dac_wt_dcabin_width design_gross_mass fuselage_length fuselage_pressure_differential
    fuselage_avg_diameter airconditioning_mass_coefficient

/-- Partial of `airconditioning_mass` with respect to `airconditioning_mass_coefficient` as set by `ACMass`, aviary/subsystems/mass/gasp_based/air_conditioning.py:193 -/
noncomputable def J_airconditioning_mass__airconditioning_mass_coefficient (design_gross_mass fuselage_length fuselage_pressure_differential fuselage_avg_diameter : ℝ) : ℝ :=
  dac_wt_dac_coeff design_gross_mass fuselage_length fuselage_pressure_differential
    fuselage_avg_diameter

theorem d_airconditioning_mass__design_gross_mass (design_gross_mass fuselage_length
    fuselage_pressure_differential fuselage_avg_diameter airconditioning_mass_coefficient : ℝ) (h0
    : design_gross_mass ≠ 3500) (h1 : 0 < fuselage_length) (h2 : 0 < fuselage_avg_diameter) :
    HasDerivAt (fun t => out_airconditioning_mass t fuselage_length fuselage_pressure_differential fuselage_avg_diameter airconditioning_mass_coefficient) (J_airconditioning_mass__design_gross_mass) design_gross_mass := by
  simp only [out_airconditioning_mass, J_airconditioning_mass__design_gross_mass, air_conditioning_wt_2, air_conditioning_wt]
  try split_ifs
  all_goals (apply hasDerivAt_of_eq; on_goal 1 => (repeat' comp_step))
  all_goals try comp_side
  all_goals try simp (disch := first | assumption | positivity) only [div_mul_eq_div_div, div_half, inv_half]
  all_goals try split_ifs
  all_goals try (exfalso; linarith)
  all_goals try simp only [mul_zero, zero_mul, add_zero, zero_add, sub_zero, zero_sub, mul_one, one_mul]
  all_goals try push_cast
  all_goals comp_eq

theorem d_airconditioning_mass__fuselage_length (design_gross_mass fuselage_length
    fuselage_pressure_differential fuselage_avg_diameter airconditioning_mass_coefficient : ℝ) (h0
    : 0 < fuselage_length) (h1 : 0 < fuselage_avg_diameter) :
    HasDerivAt (fun t => out_airconditioning_mass design_gross_mass t fuselage_pressure_differential fuselage_avg_diameter airconditioning_mass_coefficient) (J_airconditioning_mass__fuselage_length design_gross_mass fuselage_length fuselage_pressure_differential fuselage_avg_diameter airconditioning_mass_coefficient) fuselage_length := by
  have e0 : ∀ x : ℝ, 0 < x → x ^ ((-(1 / 2)) : ℝ) = x ^ ((1 / 2) : ℝ) / x ^ 1 := fun x hx => rpow_down hx 1 (by norm_num)
  simp only [out_airconditioning_mass, J_airconditioning_mass__fuselage_length, dac_wt_dfus_len, dac_wt_dfus_1_len, air_conditioning_wt_2, air_conditioning_wt]
  try split_ifs
  all_goals (apply hasDerivAt_of_eq; on_goal 1 => (repeat' comp_step))
  all_goals try comp_side
  all_goals try simp (disch := first | assumption | positivity) only [e0, div_mul_eq_div_div, div_half, inv_half]
  all_goals try split_ifs
  all_goals try (exfalso; linarith)
  all_goals try simp only [mul_zero, zero_mul, add_zero, zero_add, sub_zero, zero_sub, mul_one, one_mul]
  all_goals try push_cast
  all_goals comp_eq

theorem d_airconditioning_mass__fuselage_pressure_differential (design_gross_mass fuselage_length
    fuselage_pressure_differential fuselage_avg_diameter airconditioning_mass_coefficient : ℝ) (h0
    : 0 < fuselage_length) (h1 : 0 < fuselage_avg_diameter) :
    HasDerivAt (fun t => out_airconditioning_mass design_gross_mass fuselage_length t fuselage_avg_diameter airconditioning_mass_coefficient) (J_airconditioning_mass__fuselage_pressure_differential design_gross_mass fuselage_length fuselage_avg_diameter airconditioning_mass_coefficient) fuselage_pressure_differential := by
  simp only [out_airconditioning_mass, J_airconditioning_mass__fuselage_pressure_differential, dac_wt_dp_diff_fus, dac_wt_dp_diff_1_fus, air_conditioning_wt_2, air_conditioning_wt]
  try split_ifs
  all_goals (apply hasDerivAt_of_eq; on_goal 1 => (repeat' comp_step))
  all_goals try comp_side
  all_goals try simp (disch := first | assumption | positivity) only [div_mul_eq_div_div, div_half, inv_half]
  all_goals try split_ifs
  all_goals try (exfalso; linarith)
  all_goals try simp only [mul_zero, zero_mul, add_zero, zero_add, sub_zero, zero_sub, mul_one, one_mul]
  all_goals try push_cast
  all_goals comp_eq

theorem d_airconditioning_mass__fuselage_avg_diameter (design_gross_mass fuselage_length
    fuselage_pressure_differential fuselage_avg_diameter airconditioning_mass_coefficient : ℝ) (h0
    : 0 < fuselage_length) (h1 : 0 < fuselage_avg_diameter) :
    HasDerivAt (fun t => out_airconditioning_mass design_gross_mass fuselage_length fuselage_pressure_differential t airconditioning_mass_coefficient) (J_airconditioning_mass__fuselage_avg_diameter design_gross_mass fuselage_length fuselage_pressure_differential fuselage_avg_diameter airconditioning_mass_coefficient) fuselage_avg_diameter := by
  have e0 : ∀ x : ℝ, 0 < x → x ^ ((-(1 / 2)) : ℝ) = x ^ ((1 / 2) : ℝ) / x ^ 1 := fun x hx => rpow_down hx 1 (by norm_num)
  simp only [out_airconditioning_mass, J_airconditioning_mass__fuselage_avg_diameter, dac_wt_dcabin_width, dac_wt_dcabin_1_width, air_conditioning_wt_2, air_conditioning_wt]
  try split_ifs
  all_goals (apply hasDerivAt_of_eq; on_goal 1 => (repeat' comp_step))
  all_goals try comp_side
  all_goals try simp (disch := first | assumption | positivity) only [e0, div_mul_eq_div_div, div_half, inv_half]
  all_goals try split_ifs
  all_goals try (exfalso; linarith)
  all_goals try simp only [mul_zero, zero_mul, add_zero, zero_add, sub_zero, zero_sub, mul_one, one_mul]
  all_goals try push_cast
  all_goals comp_eq

theorem d_airconditioning_mass__airconditioning_mass_coefficient (design_gross_mass
    fuselage_length fuselage_pressure_differential fuselage_avg_diameter
    airconditioning_mass_coefficient : ℝ) (h0 : 0 < fuselage_length) (h1 : 0 <
    fuselage_avg_diameter) :
    HasDerivAt (fun t => out_airconditioning_mass design_gross_mass fuselage_length fuselage_pressure_differential fuselage_avg_diameter t) (J_airconditioning_mass__airconditioning_mass_coefficient design_gross_mass fuselage_length fuselage_pressure_differential fuselage_avg_diameter) airconditioning_mass_coefficient := by
  simp only [out_airconditioning_mass, J_airconditioning_mass__airconditioning_mass_coefficient, dac_wt_dac_coeff, dac_wt_dac_1_coeff, air_conditioning_wt_2, air_conditioning_wt]
  try split_ifs
  all_goals (apply hasDerivAt_of_eq; on_goal 1 => (repeat' comp_step))
  all_goals try comp_side
  all_goals try simp (disch := first | assumption | positivity) only [div_mul_eq_div_div, div_half, inv_half]
  all_goals try split_ifs
  all_goals try (exfalso; linarith)
  all_goals try simp only [mul_zero, zero_mul, add_zero, zero_add, sub_zero, zero_sub, mul_one, one_mul]
  all_goals try push_cast
  all_goals comp_eq

/-- Every partial derivative set by `ACMass` is the derivative of its output. -/
theorem partials (design_gross_mass fuselage_length fuselage_pressure_differential
    fuselage_avg_diameter airconditioning_mass_coefficient : ℝ) (h0 : design_gross_mass ≠ 3500)
    (h1 : 0 < fuselage_length) (h2 : 0 < fuselage_avg_diameter) :
    HasDerivAt (fun t => out_airconditioning_mass t fuselage_length fuselage_pressure_differential
      fuselage_avg_diameter airconditioning_mass_coefficient)
      (J_airconditioning_mass__design_gross_mass) design_gross_mass ∧
    HasDerivAt (fun t => out_airconditioning_mass design_gross_mass t fuselage_pressure_differential
      fuselage_avg_diameter airconditioning_mass_coefficient)
      (J_airconditioning_mass__fuselage_length design_gross_mass fuselage_length
      fuselage_pressure_differential fuselage_avg_diameter airconditioning_mass_coefficient)
      fuselage_length ∧
    HasDerivAt (fun t => out_airconditioning_mass design_gross_mass fuselage_length t
      fuselage_avg_diameter airconditioning_mass_coefficient)
      (J_airconditioning_mass__fuselage_pressure_differential design_gross_mass fuselage_length
      fuselage_avg_diameter airconditioning_mass_coefficient) fuselage_pressure_differential ∧
    HasDerivAt (fun t => out_airconditioning_mass design_gross_mass fuselage_length
      fuselage_pressure_differential t airconditioning_mass_coefficient)
      (J_airconditioning_mass__fuselage_avg_diameter design_gross_mass fuselage_length
      fuselage_pressure_differential fuselage_avg_diameter airconditioning_mass_coefficient)
      fuselage_avg_diameter ∧
    HasDerivAt (fun t => out_airconditioning_mass design_gross_mass fuselage_length
      fuselage_pressure_differential fuselage_avg_diameter t)
      (J_airconditioning_mass__airconditioning_mass_coefficient design_gross_mass fuselage_length
      fuselage_pressure_differential fuselage_avg_diameter) airconditioning_mass_coefficient :=
  ⟨d_airconditioning_mass__design_gross_mass _ _ _ _ _ h0 h1 h2,
    d_airconditioning_mass__fuselage_length _ _ _ _ _ h1 h2,
    d_airconditioning_mass__fuselage_pressure_differential _ _ _ _ _ h1 h2,
    d_airconditioning_mass__fuselage_avg_diameter _ _ _ _ _ h1 h2,
    d_airconditioning_mass__airconditioning_mass_coefficient _ _ _ _ _ h1 h2⟩

example : ∃ design_gross_mass fuselage_length fuselage_pressure_differential fuselage_avg_diameter
      airconditioning_mass_coefficient : ℝ,
      design_gross_mass ≠ 3500 ∧
      0 < fuselage_length ∧
      0 < fuselage_avg_diameter :=
  ⟨0, 1, 0, 1, 0, by comp_example, by comp_example, by comp_example⟩

end Verif.Comp.MassGaspBasedAirConditioning.ACMass_no_smooth

namespace Verif.Comp.MassGaspBasedAirConditioning.BWBACMass_smooth
open Real

/-- aviary/subsystems/mass/gasp_based/air_conditioning.py:11 -/
noncomputable def smoother (mu x0 design_gross_mass : ℝ) : ℝ := sigX design_gross_mass x0 mu

/-- aviary/subsystems/mass/gasp_based/air_conditioning.py:13 -/
noncomputable def air_cond1_wt (fuselage_length fuselage_pressure_differential fuselage_hydraulic_diameter airconditioning_mass_coefficient : ℝ) : ℝ :=
  (airconditioning_mass_coefficient * ((3 / 2) + fuselage_pressure_differential)) * ((((179 /
    500) * fuselage_length) * (fuselage_hydraulic_diameter ^ 2)) ^ ((1 / 2) : ℝ))

/-- aviary/subsystems/mass/gasp_based/air_conditioning.py:16 -/
noncomputable def air_conditioning_wt (mu x0 design_gross_mass fuselage_length fuselage_pressure_differential fuselage_hydraulic_diameter airconditioning_mass_coefficient : ℝ) : ℝ :=
  ((smoother mu x0 design_gross_mass) * (air_cond1_wt fuselage_length
    fuselage_pressure_differential fuselage_hydraulic_diameter
    airconditioning_mass_coefficient)) + ((1 - (smoother mu x0 design_gross_mass)) * 5)

/-- aviary/subsystems/mass/gasp_based/air_conditioning.py:35 -/
noncomputable def dac_wt_dgross_wt (mu x0 design_gross_mass fuselage_length fuselage_pressure_differential fuselage_hydraulic_diameter airconditioning_mass_coefficient : ℝ) : ℝ :=
  ((dsigX design_gross_mass x0 mu) * (air_cond1_wt fuselage_length
    fuselage_pressure_differential fuselage_hydraulic_diameter
    airconditioning_mass_coefficient)) - ((dsigX design_gross_mass x0 mu) * 5)

/-- aviary/subsystems/mass/gasp_based/air_conditioning.py:43 -/
noncomputable def dac_wt_dfus_1_len (fuselage_length fuselage_pressure_differential fuselage_hydraulic_diameter airconditioning_mass_coefficient : ℝ) : ℝ :=
  (((((1 / 2) * airconditioning_mass_coefficient) * ((3 / 2) + fuselage_pressure_differential))
    * (179 / 500)) * (fuselage_hydraulic_diameter ^ 2)) * ((((179 / 500) * fuselage_length) *
    (fuselage_hydraulic_diameter ^ 2)) ^ ((-(1 / 2)) : ℝ))

/-- aviary/subsystems/mass/gasp_based/air_conditioning.py:51 -/
noncomputable def dac_wt_dp_diff_1_fus (fuselage_length fuselage_hydraulic_diameter airconditioning_mass_coefficient : ℝ) : ℝ :=
  airconditioning_mass_coefficient * ((((179 / 500) * fuselage_length) *
    (fuselage_hydraulic_diameter ^ 2)) ^ ((1 / 2) : ℝ))

/-- aviary/subsystems/mass/gasp_based/air_conditioning.py:52 -/
noncomputable def dac_wt_dcabin_1_width (fuselage_length fuselage_pressure_differential fuselage_hydraulic_diameter airconditioning_mass_coefficient : ℝ) : ℝ :=
  ((((airconditioning_mass_coefficient * ((3 / 2) + fuselage_pressure_differential)) * (179 /
    500)) * fuselage_length) * fuselage_hydraulic_diameter) * ((((179 / 500) * fuselage_length)
    * (fuselage_hydraulic_diameter ^ 2)) ^ ((-(1 / 2)) : ℝ))

/-- aviary/subsystems/mass/gasp_based/air_conditioning.py:60 -/
noncomputable def dac_wt_dac_1_coeff (fuselage_length fuselage_pressure_differential fuselage_hydraulic_diameter : ℝ) : ℝ :=
  ((3 / 2) + fuselage_pressure_differential) * ((((179 / 500) * fuselage_length) *
    (fuselage_hydraulic_diameter ^ 2)) ^ ((1 / 2) : ℝ))

/-- aviary/subsystems/mass/gasp_based/air_conditioning.py:69 -/
noncomputable def dac_wt_dfus_len (mu x0 design_gross_mass fuselage_length fuselage_pressure_differential fuselage_hydraulic_diameter airconditioning_mass_coefficient : ℝ) : ℝ :=
  ((sigX design_gross_mass x0 mu) * (dac_wt_dfus_1_len fuselage_length
    fuselage_pressure_differential fuselage_hydraulic_diameter
    airconditioning_mass_coefficient)) + ((1 - (sigX design_gross_mass x0 mu)) * 0)

/-- aviary/subsystems/mass/gasp_based/air_conditioning.py:80 -/
noncomputable def dac_wt_dp_diff_fus (mu x0 design_gross_mass fuselage_length fuselage_hydraulic_diameter airconditioning_mass_coefficient : ℝ) : ℝ :=
  ((sigX design_gross_mass x0 mu) * (dac_wt_dp_diff_1_fus fuselage_length
    fuselage_hydraulic_diameter airconditioning_mass_coefficient)) + ((1 - (sigX
    design_gross_mass x0 mu)) * 0)

/-- aviary/subsystems/mass/gasp_based/air_conditioning.py:91 -/
noncomputable def dac_wt_dcabin_width (mu x0 design_gross_mass fuselage_length fuselage_pressure_differential fuselage_hydraulic_diameter airconditioning_mass_coefficient : ℝ) : ℝ :=
  ((sigX design_gross_mass x0 mu) * (dac_wt_dcabin_1_width fuselage_length
    fuselage_pressure_differential fuselage_hydraulic_diameter
    airconditioning_mass_coefficient)) + ((1 - (sigX design_gross_mass x0 mu)) * 0)

/-- aviary/subsystems/mass/gasp_based/air_conditioning.py:102 -/
noncomputable def dac_wt_dac_coeff (mu x0 design_gross_mass fuselage_length fuselage_pressure_differential fuselage_hydraulic_diameter : ℝ) : ℝ :=
  ((sigX design_gross_mass x0 mu) * (dac_wt_dac_1_coeff fuselage_length
    fuselage_pressure_differential fuselage_hydraulic_diameter)) + ((1 - (sigX design_gross_mass
    x0 mu)) * 0)

/-- Output `airconditioning_mass` of `BWBACMass.compute`, aviary/subsystems/mass/gasp_based/air_conditioning.py:240 -/
noncomputable def out_airconditioning_mass (mu x0 design_gross_mass fuselage_length fuselage_pressure_differential fuselage_hydraulic_diameter airconditioning_mass_coefficient : ℝ) : ℝ :=
  air_conditioning_wt mu x0 design_gross_mass fuselage_length fuselage_pressure_differential
    fuselage_hydraulic_diameter airconditioning_mass_coefficient

/-- Partial of `airconditioning_mass` with respect to `design_gross_mass` as set by `BWBACMass`, aviary/subsystems/mass/gasp_based/air_conditioning.py:261 -/
noncomputable def J_airconditioning_mass__design_gross_mass (mu x0 design_gross_mass fuselage_length fuselage_pressure_differential fuselage_hydraulic_diameter airconditioning_mass_coefficient : ℝ) : ℝ :=
  dac_wt_dgross_wt mu x0 design_gross_mass fuselage_length fuselage_pressure_differential
    fuselage_hydraulic_diameter airconditioning_mass_coefficient

/-- Partial of `airconditioning_mass` with respect to `fuselage_length` as set by `BWBACMass`, aviary/subsystems/mass/gasp_based/air_conditioning.py:262 -/
noncomputable def J_airconditioning_mass__fuselage_length (mu x0 design_gross_mass fuselage_length fuselage_pressure_differential fuselage_hydraulic_diameter airconditioning_mass_coefficient : ℝ) : ℝ :=
  dac_wt_dfus_len mu x0 design_gross_mass fuselage_length fuselage_pressure_differential
    fuselage_hydraulic_diameter airconditioning_mass_coefficient

/-- Partial of `airconditioning_mass` with respect to `fuselage_pressure_differential` as set by `BWBACMass`, aviary/subsystems/mass/gasp_based/air_conditioning.py:265 -/
noncomputable def J_airconditioning_mass__fuselage_pressure_differential (mu x0 design_gross_mass fuselage_length fuselage_hydraulic_diameter airconditioning_mass_coefficient : ℝ) : ℝ :=
  dac_wt_dp_diff_fus mu x0 design_gross_mass fuselage_length fuselage_hydraulic_diameter
    airconditioning_mass_coefficient

/-- Partial of `airconditioning_mass` with respect to `fuselage_hydraulic_diameter` as set by `BWBACMass`, aviary/subsystems/mass/gasp_based/air_conditioning.py:268 -/
noncomputable def J_airconditioning_mass__fuselage_hydraulic_diameter (mu x0 design_gross_mass fuselage_length fuselage_pressure_differential fuselage_hydraulic_diameter airconditioning_mass_coefficient : ℝ) : ℝ :=
  dac_wt_dcabin_width mu x0 design_gross_mass fuselage_length fuselage_pressure_differential
    fuselage_hydraulic_diameter airconditioning_mass_coefficient

/-- Partial of `airconditioning_mass` with respect to `airconditioning_mass_coefficient` as set by `BWBACMass`, aviary/subsystems/mass/gasp_based/air_conditioning.py:271 -/
noncomputable def J_airconditioning_mass__airconditioning_mass_coefficient (mu x0 design_gross_mass fuselage_length fuselage_pressure_differential fuselage_hydraulic_diameter : ℝ) : ℝ :=
  dac_wt_dac_coeff mu x0 design_gross_mass fuselage_length fuselage_pressure_differential
    fuselage_hydraulic_diameter

theorem d_airconditioning_mass__design_gross_mass (mu x0 design_gross_mass fuselage_length
    fuselage_pressure_differential fuselage_hydraulic_diameter airconditioning_mass_coefficient :
    ℝ) (h0 : 0 < mu) (h1 : (design_gross_mass - x0) / mu ≠ -320) (h2 : 0 < fuselage_length) (h3 :
    0 < fuselage_hydraulic_diameter) :
    HasDerivAt (fun t => out_airconditioning_mass mu x0 t fuselage_length fuselage_pressure_differential fuselage_hydraulic_diameter airconditioning_mass_coefficient) (J_airconditioning_mass__design_gross_mass mu x0 design_gross_mass fuselage_length fuselage_pressure_differential fuselage_hydraulic_diameter airconditioning_mass_coefficient) design_gross_mass := by
  simp only [out_airconditioning_mass, J_airconditioning_mass__design_gross_mass, dac_wt_dgross_wt, air_conditioning_wt, air_cond1_wt, smoother]
  (apply hasDerivAt_of_eq; on_goal 1 => (repeat' comp_step))
  all_goals try comp_side
  all_goals try simp (disch := first | assumption | positivity) only [div_mul_eq_div_div, div_half, inv_half]
  all_goals try simp only [mul_zero, zero_mul, add_zero, zero_add, sub_zero, zero_sub, mul_one, one_mul]
  all_goals try push_cast
  all_goals comp_eq

theorem d_airconditioning_mass__fuselage_length (mu x0 design_gross_mass fuselage_length
    fuselage_pressure_differential fuselage_hydraulic_diameter airconditioning_mass_coefficient :
    ℝ) (h0 : 0 < mu) (h1 : 0 < fuselage_length) (h2 : 0 < fuselage_hydraulic_diameter) :
    HasDerivAt (fun t => out_airconditioning_mass mu x0 design_gross_mass t fuselage_pressure_differential fuselage_hydraulic_diameter airconditioning_mass_coefficient) (J_airconditioning_mass__fuselage_length mu x0 design_gross_mass fuselage_length fuselage_pressure_differential fuselage_hydraulic_diameter airconditioning_mass_coefficient) fuselage_length := by
  have e0 : ∀ x : ℝ, 0 < x → x ^ ((-(1 / 2)) : ℝ) = x ^ ((1 / 2) : ℝ) / x ^ 1 := fun x hx => rpow_down hx 1 (by norm_num)
  simp only [out_airconditioning_mass, J_airconditioning_mass__fuselage_length, dac_wt_dfus_len, dac_wt_dfus_1_len, air_conditioning_wt, air_cond1_wt, smoother]
  (apply hasDerivAt_of_eq; on_goal 1 => (repeat' comp_step))
  all_goals try comp_side
  all_goals try simp (disch := first | assumption | positivity) only [e0, div_mul_eq_div_div, div_half, inv_half]
  all_goals try simp only [mul_zero, zero_mul, add_zero, zero_add, sub_zero, zero_sub, mul_one, one_mul]
  all_goals try push_cast
  all_goals comp_eq

theorem d_airconditioning_mass__fuselage_pressure_differential (mu x0 design_gross_mass
    fuselage_length fuselage_pressure_differential fuselage_hydraulic_diameter
    airconditioning_mass_coefficient : ℝ) (h0 : 0 < mu) (h1 : 0 < fuselage_length) (h2 : 0 <
    fuselage_hydraulic_diameter) :
    HasDerivAt (fun t => out_airconditioning_mass mu x0 design_gross_mass fuselage_length t fuselage_hydraulic_diameter airconditioning_mass_coefficient) (J_airconditioning_mass__fuselage_pressure_differential mu x0 design_gross_mass fuselage_length fuselage_hydraulic_diameter airconditioning_mass_coefficient) fuselage_pressure_differential := by
  simp only [out_airconditioning_mass, J_airconditioning_mass__fuselage_pressure_differential, dac_wt_dp_diff_fus, dac_wt_dp_diff_1_fus, air_conditioning_wt, air_cond1_wt, smoother]
  (apply hasDerivAt_of_eq; on_goal 1 => (repeat' comp_step))
  all_goals try comp_side
  all_goals try simp (disch := first | assumption | positivity) only [div_mul_eq_div_div, div_half, inv_half]
  all_goals try simp only [mul_zero, zero_mul, add_zero, zero_add, sub_zero, zero_sub, mul_one, one_mul]
  all_goals try push_cast
  all_goals comp_eq

theorem d_airconditioning_mass__fuselage_hydraulic_diameter (mu x0 design_gross_mass
    fuselage_length fuselage_pressure_differential fuselage_hydraulic_diameter
    airconditioning_mass_coefficient : ℝ) (h0 : 0 < mu) (h1 : 0 < fuselage_length) (h2 : 0 <
    fuselage_hydraulic_diameter) :
    HasDerivAt (fun t => out_airconditioning_mass mu x0 design_gross_mass fuselage_length fuselage_pressure_differential t airconditioning_mass_coefficient) (J_airconditioning_mass__fuselage_hydraulic_diameter mu x0 design_gross_mass fuselage_length fuselage_pressure_differential fuselage_hydraulic_diameter airconditioning_mass_coefficient) fuselage_hydraulic_diameter := by
  have e0 : ∀ x : ℝ, 0 < x → x ^ ((-(1 / 2)) : ℝ) = x ^ ((1 / 2) : ℝ) / x ^ 1 := fun x hx => rpow_down hx 1 (by norm_num)
  simp only [out_airconditioning_mass, J_airconditioning_mass__fuselage_hydraulic_diameter, dac_wt_dcabin_width, dac_wt_dcabin_1_width, air_conditioning_wt, air_cond1_wt, smoother]
  (apply hasDerivAt_of_eq; on_goal 1 => (repeat' comp_step))
  all_goals try comp_side
  all_goals try simp (disch := first | assumption | positivity) only [e0, div_mul_eq_div_div, div_half, inv_half]
  all_goals try simp only [mul_zero, zero_mul, add_zero, zero_add, sub_zero, zero_sub, mul_one, one_mul]
  all_goals try push_cast
  all_goals comp_eq

theorem d_airconditioning_mass__airconditioning_mass_coefficient (mu x0 design_gross_mass
    fuselage_length fuselage_pressure_differential fuselage_hydraulic_diameter
    airconditioning_mass_coefficient : ℝ) (h0 : 0 < mu) (h1 : 0 < fuselage_length) (h2 : 0 <
    fuselage_hydraulic_diameter) :
    HasDerivAt (fun t => out_airconditioning_mass mu x0 design_gross_mass fuselage_length fuselage_pressure_differential fuselage_hydraulic_diameter t) (J_airconditioning_mass__airconditioning_mass_coefficient mu x0 design_gross_mass fuselage_length fuselage_pressure_differential fuselage_hydraulic_diameter) airconditioning_mass_coefficient := by
  simp only [out_airconditioning_mass, J_airconditioning_mass__airconditioning_mass_coefficient, dac_wt_dac_coeff, dac_wt_dac_1_coeff, air_conditioning_wt, air_cond1_wt, smoother]
  (apply hasDerivAt_of_eq; on_goal 1 => (repeat' comp_step))
  all_goals try comp_side
  all_goals try simp (disch := first | assumption | positivity) only [div_mul_eq_div_div, div_half, inv_half]
  all_goals try simp only [mul_zero, zero_mul, add_zero, zero_add, sub_zero, zero_sub, mul_one, one_mul]
  all_goals try push_cast
  all_goals comp_eq

/-- Every partial derivative set by `BWBACMass` is the derivative of its output. -/
theorem partials (mu x0 design_gross_mass fuselage_length fuselage_pressure_differential
    fuselage_hydraulic_diameter airconditioning_mass_coefficient : ℝ) (h0 : 0 < mu) (h1 :
    (design_gross_mass - x0) / mu ≠ -320) (h2 : 0 < fuselage_length) (h3 : 0 <
    fuselage_hydraulic_diameter) :
    HasDerivAt (fun t => out_airconditioning_mass mu x0 t fuselage_length
      fuselage_pressure_differential fuselage_hydraulic_diameter airconditioning_mass_coefficient)
      (J_airconditioning_mass__design_gross_mass mu x0 design_gross_mass fuselage_length
      fuselage_pressure_differential fuselage_hydraulic_diameter airconditioning_mass_coefficient)
      design_gross_mass ∧
    HasDerivAt (fun t => out_airconditioning_mass mu x0 design_gross_mass t
      fuselage_pressure_differential fuselage_hydraulic_diameter airconditioning_mass_coefficient)
      (J_airconditioning_mass__fuselage_length mu x0 design_gross_mass fuselage_length
      fuselage_pressure_differential fuselage_hydraulic_diameter airconditioning_mass_coefficient)
      fuselage_length ∧
    HasDerivAt (fun t => out_airconditioning_mass mu x0 design_gross_mass fuselage_length t
      fuselage_hydraulic_diameter airconditioning_mass_coefficient)
      (J_airconditioning_mass__fuselage_pressure_differential mu x0 design_gross_mass
      fuselage_length fuselage_hydraulic_diameter airconditioning_mass_coefficient)
      fuselage_pressure_differential ∧
    HasDerivAt (fun t => out_airconditioning_mass mu x0 design_gross_mass fuselage_length
      fuselage_pressure_differential t airconditioning_mass_coefficient)
      (J_airconditioning_mass__fuselage_hydraulic_diameter mu x0 design_gross_mass fuselage_length
      fuselage_pressure_differential fuselage_hydraulic_diameter airconditioning_mass_coefficient)
      fuselage_hydraulic_diameter ∧
    HasDerivAt (fun t => out_airconditioning_mass mu x0 design_gross_mass fuselage_length
      fuselage_pressure_differential fuselage_hydraulic_diameter t)
      (J_airconditioning_mass__airconditioning_mass_coefficient mu x0 design_gross_mass
      fuselage_length fuselage_pressure_differential fuselage_hydraulic_diameter)
      airconditioning_mass_coefficient :=
  ⟨d_airconditioning_mass__design_gross_mass _ _ _ _ _ _ _ h0 h1 h2 h3,
    d_airconditioning_mass__fuselage_length _ _ _ _ _ _ _ h0 h2 h3,
    d_airconditioning_mass__fuselage_pressure_differential _ _ _ _ _ _ _ h0 h2 h3,
    d_airconditioning_mass__fuselage_hydraulic_diameter _ _ _ _ _ _ _ h0 h2 h3,
    d_airconditioning_mass__airconditioning_mass_coefficient _ _ _ _ _ _ _ h0 h2 h3⟩

example : ∃ mu x0 design_gross_mass fuselage_length fuselage_pressure_differential
      fuselage_hydraulic_diameter airconditioning_mass_coefficient : ℝ,
      0 < mu ∧
      (design_gross_mass - x0) / mu ≠ -320 ∧
      0 < fuselage_length ∧
      0 < fuselage_hydraulic_diameter :=
  ⟨1, 0, 0, 1, 0, 1, 0, by comp_example, by comp_example, by comp_example, by comp_example⟩

end Verif.Comp.MassGaspBasedAirConditioning.BWBACMass_smooth

namespace Verif.Comp.MassGaspBasedAirConditioning.BWBACMass_no_smooth
open Real

/-- aviary/subsystems/mass/gasp_based/air_conditioning.py:19 -/
noncomputable abbrev air_conditioning_wt (fuselage_length fuselage_pressure_differential fuselage_hydraulic_diameter airconditioning_mass_coefficient : ℝ) : ℝ :=
  (airconditioning_mass_coefficient * ((3 / 2) + fuselage_pressure_differential)) * ((((179 /
    500) * fuselage_length) * (fuselage_hydraulic_diameter ^ 2)) ^ ((1 / 2) : ℝ))

/-- aviary/subsystems/mass/gasp_based/air_conditioning.py:18 -/
noncomputable abbrev air_conditioning_wt_2 (design_gross_mass fuselage_length fuselage_pressure_differential fuselage_hydraulic_diameter airconditioning_mass_coefficient : ℝ) : ℝ :=
  if 3500 < design_gross_mass then (air_conditioning_wt fuselage_length
    fuselage_pressure_differential fuselage_hydraulic_diameter airconditioning_mass_coefficient)
    else 5

/-- aviary/subsystems/mass/gasp_based/air_conditioning.py:43 -/
noncomputable abbrev dac_wt_dfus_1_len (fuselage_length fuselage_pressure_differential fuselage_hydraulic_diameter airconditioning_mass_coefficient : ℝ) : ℝ :=
  (((((1 / 2) * airconditioning_mass_coefficient) * ((3 / 2) + fuselage_pressure_differential))
    * (179 / 500)) * (fuselage_hydraulic_diameter ^ 2)) * ((((179 / 500) * fuselage_length) *
    (fuselage_hydraulic_diameter ^ 2)) ^ ((-(1 / 2)) : ℝ))

/-- aviary/subsystems/mass/gasp_based/air_conditioning.py:51 -/
noncomputable abbrev dac_wt_dp_diff_1_fus (fuselage_length fuselage_hydraulic_diameter airconditioning_mass_coefficient : ℝ) : ℝ :=
  airconditioning_mass_coefficient * ((((179 / 500) * fuselage_length) *
    (fuselage_hydraulic_diameter ^ 2)) ^ ((1 / 2) : ℝ))

/-- aviary/subsystems/mass/gasp_based/air_conditioning.py:52 -/
noncomputable abbrev dac_wt_dcabin_1_width (fuselage_length fuselage_pressure_differential fuselage_hydraulic_diameter airconditioning_mass_coefficient : ℝ) : ℝ :=
  ((((airconditioning_mass_coefficient * ((3 / 2) + fuselage_pressure_differential)) * (179 /
    500)) * fuselage_length) * fuselage_hydraulic_diameter) * ((((179 / 500) * fuselage_length)
    * (fuselage_hydraulic_diameter ^ 2)) ^ ((-(1 / 2)) : ℝ))

/-- aviary/subsystems/mass/gasp_based/air_conditioning.py:60 -/
noncomputable abbrev dac_wt_dac_1_coeff (fuselage_length fuselage_pressure_differential fuselage_hydraulic_diameter : ℝ) : ℝ :=
  ((3 / 2) + fuselage_pressure_differential) * ((((179 / 500) * fuselage_length) *
    (fuselage_hydraulic_diameter ^ 2)) ^ ((1 / 2) : ℝ))

/-- aviary/subsystems/mass/gasp_based/air_conditioning.py:74 -/
noncomputable abbrev dac_wt_dfus_len (design_gross_mass fuselage_length fuselage_pressure_differential fuselage_hydraulic_diameter airconditioning_mass_coefficient : ℝ) : ℝ :=
  if 3500 < design_gross_mass then (dac_wt_dfus_1_len fuselage_length
    fuselage_pressure_differential fuselage_hydraulic_diameter airconditioning_mass_coefficient)
    else 0

/-- aviary/subsystems/mass/gasp_based/air_conditioning.py:85 -/
noncomputable abbrev dac_wt_dp_diff_fus (design_gross_mass fuselage_length fuselage_hydraulic_diameter airconditioning_mass_coefficient : ℝ) : ℝ :=
  if 3500 < design_gross_mass then (dac_wt_dp_diff_1_fus fuselage_length
    fuselage_hydraulic_diameter airconditioning_mass_coefficient) else 0

/-- aviary/subsystems/mass/gasp_based/air_conditioning.py:96 -/
noncomputable abbrev dac_wt_dcabin_width (design_gross_mass fuselage_length fuselage_pressure_differential fuselage_hydraulic_diameter airconditioning_mass_coefficient : ℝ) : ℝ :=
  if 3500 < design_gross_mass then (dac_wt_dcabin_1_width fuselage_length
    fuselage_pressure_differential fuselage_hydraulic_diameter airconditioning_mass_coefficient)
    else 0

/-- aviary/subsystems/mass/gasp_based/air_conditioning.py:107 -/
noncomputable abbrev dac_wt_dac_coeff (design_gross_mass fuselage_length fuselage_pressure_differential fuselage_hydraulic_diameter : ℝ) : ℝ :=
  if 3500 < design_gross_mass then (dac_wt_dac_1_coeff fuselage_length
    fuselage_pressure_differential fuselage_hydraulic_diameter) else 0

/-- Output `airconditioning_mass` of `BWBACMass.compute`, aviary/subsystems/mass/gasp_based/air_conditioning.py:240 -/
noncomputable def out_airconditioning_mass (design_gross_mass fuselage_length fuselage_pressure_differential fuselage_hydraulic_diameter airconditioning_mass_coefficient : ℝ) : ℝ :=
  air_conditioning_wt_2 design_gross_mass fuselage_length fuselage_pressure_differential
    fuselage_hydraulic_diameter airconditioning_mass_coefficient

/-- Partial of `airconditioning_mass` with respect to `design_gross_mass` as set by `BWBACMass`, aviary/subsystems/mass/gasp_based/air_conditioning.py:261 -/
noncomputable def J_airconditioning_mass__design_gross_mass : ℝ := 0

/-- Partial of `airconditioning_mass` with respect to `fuselage_length` as set by `BWBACMass`, aviary/subsystems/mass/gasp_based/air_conditioning.py:262 -/
noncomputable def J_airconditioning_mass__fuselage_length (design_gross_mass fuselage_length fuselage_pressure_differential fuselage_hydraulic_diameter airconditioning_mass_coefficient : ℝ) : ℝ :=
  dac_wt_dfus_len design_gross_mass fuselage_length fuselage_pressure_differential
    fuselage_hydraulic_diameter airconditioning_mass_coefficient

/-- Partial of `airconditioning_mass` with respect to `fuselage_pressure_differential` as set by `BWBACMass`, aviary/subsystems/mass/gasp_based/air_conditioning.py:265 -/
noncomputable def J_airconditioning_mass__fuselage_pressure_differential (design_gross_mass fuselage_length fuselage_hydraulic_diameter airconditioning_mass_coefficient : ℝ) : ℝ :=
  dac_wt_dp_diff_fus design_gross_mass fuselage_length fuselage_hydraulic_diameter
    airconditioning_mass_coefficient

/-- Partial of `airconditioning_mass` with respect to `fuselage_hydraulic_diameter` as set by `BWBACMass`, aviary/subsystems/mass/gasp_based/air_conditioning.py:268 -/
noncomputable def J_airconditioning_mass__fuselage_hydraulic_diameter (design_gross_mass fuselage_length fuselage_pressure_differential fuselage_hydraulic_diameter airconditioning_mass_coefficient : ℝ) : ℝ :=
  dac_wt_dcabin_width design_gross_mass fuselage_length fuselage_pressure_differential
    fuselage_hydraulic_diameter airconditioning_mass_coefficient

/-- Partial of `airconditioning_mass` with respect to `airconditioning_mass_coefficient` as set by `BWBACMass`, aviary/subsystems/mass/gasp_based/air_conditioning.py:271 -/
noncomputable def J_airconditioning_mass__airconditioning_mass_coefficient (design_gross_mass fuselage_length fuselage_pressure_differential fuselage_hydraulic_diameter : ℝ) : ℝ :=
  dac_wt_dac_coeff design_gross_mass fuselage_length fuselage_pressure_differential
    fuselage_hydraulic_diameter

theorem d_airconditioning_mass__design_gross_mass (design_gross_mass fuselage_length
    fuselage_pressure_differential fuselage_hydraulic_diameter airconditioning_mass_coefficient :
    ℝ) (h0 : design_gross_mass ≠ 3500) (h1 : 0 < fuselage_length) (h2 : 0 <
    fuselage_hydraulic_diameter) :
    HasDerivAt (fun t => out_airconditioning_mass t fuselage_length fuselage_pressure_differential fuselage_hydraulic_diameter airconditioning_mass_coefficient) (J_airconditioning_mass__design_gross_mass) design_gross_mass := by
  simp only [out_airconditioning_mass, J_airconditioning_mass__design_gross_mass, air_conditioning_wt_2, air_conditioning_wt]
  try split_ifs
  all_goals (apply hasDerivAt_of_eq; on_goal 1 => (repeat' comp_step))
  all_goals try comp_side
  all_goals try simp (disch := first | assumption | positivity) only [div_mul_eq_div_div, div_half, inv_half]
  all_goals try split_ifs
  all_goals try (exfalso; linarith)
  all_goals try simp only [mul_zero, zero_mul, add_zero, zero_add, sub_zero, zero_sub, mul_one, one_mul]
  all_goals try push_cast
  all_goals comp_eq

theorem d_airconditioning_mass__fuselage_length (design_gross_mass fuselage_length
    fuselage_pressure_differential fuselage_hydraulic_diameter airconditioning_mass_coefficient :
    ℝ) (h0 : 0 < fuselage_length) (h1 : 0 < fuselage_hydraulic_diameter) :
    HasDerivAt (fun t => out_airconditioning_mass design_gross_mass t fuselage_pressure_differential fuselage_hydraulic_diameter airconditioning_mass_coefficient) (J_airconditioning_mass__fuselage_length design_gross_mass fuselage_length fuselage_pressure_differential fuselage_hydraulic_diameter airconditioning_mass_coefficient) fuselage_length := by
  have e0 : ∀ x : ℝ, 0 < x → x ^ ((-(1 / 2)) : ℝ) = x ^ ((1 / 2) : ℝ) / x ^ 1 := fun x hx => rpow_down hx 1 (by norm_num)
  simp only [out_airconditioning_mass, J_airconditioning_mass__fuselage_length, dac_wt_dfus_len, dac_wt_dfus_1_len, air_conditioning_wt_2, air_conditioning_wt]
  try split_ifs
  all_goals (apply hasDerivAt_of_eq; on_goal 1 => (repeat' comp_step))
  all_goals try comp_side
  all_goals try simp (disch := first | assumption | positivity) only [e0, div_mul_eq_div_div, div_half, inv_half]
  all_goals try split_ifs
  all_goals try (exfalso; linarith)
  all_goals try simp only [mul_zero, zero_mul, add_zero, zero_add, sub_zero, zero_sub, mul_one, one_mul]
  all_goals try push_cast
  all_goals comp_eq

theorem d_airconditioning_mass__fuselage_pressure_differential (design_gross_mass fuselage_length
    fuselage_pressure_differential fuselage_hydraulic_diameter airconditioning_mass_coefficient :
    ℝ) (h0 : 0 < fuselage_length) (h1 : 0 < fuselage_hydraulic_diameter) :
    HasDerivAt (fun t => out_airconditioning_mass design_gross_mass fuselage_length t fuselage_hydraulic_diameter airconditioning_mass_coefficient) (J_airconditioning_mass__fuselage_pressure_differential design_gross_mass fuselage_length fuselage_hydraulic_diameter airconditioning_mass_coefficient) fuselage_pressure_differential := by
  simp only [out_airconditioning_mass, J_airconditioning_mass__fuselage_pressure_differential, dac_wt_dp_diff_fus, dac_wt_dp_diff_1_fus, air_conditioning_wt_2, air_conditioning_wt]
  try split_ifs
  all_goals (apply hasDerivAt_of_eq; on_goal 1 => (repeat' comp_step))
  all_goals try comp_side
  all_goals try simp (disch := first | assumption | positivity) only [div_mul_eq_div_div, div_half, inv_half]
  all_goals try split_ifs
  all_goals try (exfalso; linarith)
  all_goals try simp only [mul_zero, zero_mul, add_zero, zero_add, sub_zero, zero_sub, mul_one, one_mul]
  all_goals try push_cast
  all_goals comp_eq

theorem d_airconditioning_mass__fuselage_hydraulic_diameter (design_gross_mass fuselage_length
    fuselage_pressure_differential fuselage_hydraulic_diameter airconditioning_mass_coefficient :
    ℝ) (h0 : 0 < fuselage_length) (h1 : 0 < fuselage_hydraulic_diameter) :
    HasDerivAt (fun t => out_airconditioning_mass design_gross_mass fuselage_length fuselage_pressure_differential t airconditioning_mass_coefficient) (J_airconditioning_mass__fuselage_hydraulic_diameter design_gross_mass fuselage_length fuselage_pressure_differential fuselage_hydraulic_diameter airconditioning_mass_coefficient) fuselage_hydraulic_diameter := by
  have e0 : ∀ x : ℝ, 0 < x → x ^ ((-(1 / 2)) : ℝ) = x ^ ((1 / 2) : ℝ) / x ^ 1 := fun x hx => rpow_down hx 1 (by norm_num)
  simp only [out_airconditioning_mass, J_airconditioning_mass__fuselage_hydraulic_diameter, dac_wt_dcabin_width, dac_wt_dcabin_1_width, air_conditioning_wt_2, air_conditioning_wt]
  try split_ifs
  all_goals (apply hasDerivAt_of_eq; on_goal 1 => (repeat' comp_step))
  all_goals try comp_side
  all_goals try simp (disch := first | assumption | positivity) only [e0, div_mul_eq_div_div, div_half, inv_half]
  all_goals try split_ifs
  all_goals try (exfalso; linarith)
  all_goals try simp only [mul_zero, zero_mul, add_zero, zero_add, sub_zero, zero_sub, mul_one, one_mul]
  all_goals try push_cast
  all_goals comp_eq

theorem d_airconditioning_mass__airconditioning_mass_coefficient (design_gross_mass
    fuselage_length fuselage_pressure_differential fuselage_hydraulic_diameter
    airconditioning_mass_coefficient : ℝ) (h0 : 0 < fuselage_length) (h1 : 0 <
    fuselage_hydraulic_diameter) :
    HasDerivAt (fun t => out_airconditioning_mass design_gross_mass fuselage_length fuselage_pressure_differential fuselage_hydraulic_diameter t) (J_airconditioning_mass__airconditioning_mass_coefficient design_gross_mass fuselage_length fuselage_pressure_differential fuselage_hydraulic_diameter) airconditioning_mass_coefficient := by
  simp only [out_airconditioning_mass, J_airconditioning_mass__airconditioning_mass_coefficient, dac_wt_dac_coeff, dac_wt_dac_1_coeff, air_conditioning_wt_2, air_conditioning_wt]
  try split_ifs
  all_goals (apply hasDerivAt_of_eq; on_goal 1 => (repeat' comp_step))
  all_goals try comp_side
  all_goals try simp (disch := first | assumption | positivity) only [div_mul_eq_div_div, div_half, inv_half]
  all_goals try split_ifs
  all_goals try (exfalso; linarith)
  all_goals try simp only [mul_zero, zero_mul, add_zero, zero_add, sub_zero, zero_sub, mul_one, one_mul]
  all_goals try push_cast
  all_goals comp_eq

/-- Every partial derivative set by `BWBACMass` is the derivative of its output. -/
theorem partials (design_gross_mass fuselage_length fuselage_pressure_differential
    fuselage_hydraulic_diameter airconditioning_mass_coefficient : ℝ) (h0 : design_gross_mass ≠
    3500) (h1 : 0 < fuselage_length) (h2 : 0 < fuselage_hydraulic_diameter) :
    HasDerivAt (fun t => out_airconditioning_mass t fuselage_length fuselage_pressure_differential
      fuselage_hydraulic_diameter airconditioning_mass_coefficient)
      (J_airconditioning_mass__design_gross_mass) design_gross_mass ∧
    HasDerivAt (fun t => out_airconditioning_mass design_gross_mass t fuselage_pressure_differential
      fuselage_hydraulic_diameter airconditioning_mass_coefficient)
      (J_airconditioning_mass__fuselage_length design_gross_mass fuselage_length
      fuselage_pressure_differential fuselage_hydraulic_diameter airconditioning_mass_coefficient)
      fuselage_length ∧
    HasDerivAt (fun t => out_airconditioning_mass design_gross_mass fuselage_length t
      fuselage_hydraulic_diameter airconditioning_mass_coefficient)
      (J_airconditioning_mass__fuselage_pressure_differential design_gross_mass fuselage_length
      fuselage_hydraulic_diameter airconditioning_mass_coefficient) fuselage_pressure_differential ∧
    HasDerivAt (fun t => out_airconditioning_mass design_gross_mass fuselage_length
      fuselage_pressure_differential t airconditioning_mass_coefficient)
      (J_airconditioning_mass__fuselage_hydraulic_diameter design_gross_mass fuselage_length
      fuselage_pressure_differential fuselage_hydraulic_diameter airconditioning_mass_coefficient)
      fuselage_hydraulic_diameter ∧
    HasDerivAt (fun t => out_airconditioning_mass design_gross_mass fuselage_length
      fuselage_pressure_differential fuselage_hydraulic_diameter t)
      (J_airconditioning_mass__airconditioning_mass_coefficient design_gross_mass fuselage_length
      fuselage_pressure_differential fuselage_hydraulic_diameter) airconditioning_mass_coefficient :=
  ⟨d_airconditioning_mass__design_gross_mass _ _ _ _ _ h0 h1 h2,
    d_airconditioning_mass__fuselage_length _ _ _ _ _ h1 h2,
    d_airconditioning_mass__fuselage_pressure_differential _ _ _ _ _ h1 h2,
    d_airconditioning_mass__fuselage_hydraulic_diameter _ _ _ _ _ h1 h2,
    d_airconditioning_mass__airconditioning_mass_coefficient _ _ _ _ _ h1 h2⟩

example : ∃ design_gross_mass fuselage_length fuselage_pressure_differential
      fuselage_hydraulic_diameter airconditioning_mass_coefficient : ℝ,
      design_gross_mass ≠ 3500 ∧
      0 < fuselage_length ∧
      0 < fuselage_hydraulic_diameter :=
  ⟨0, 1, 0, 1, 0, by comp_example, by comp_example, by comp_example⟩

end Verif.Comp.MassGaspBasedAirConditioning.BWBACMass_no_smooth

